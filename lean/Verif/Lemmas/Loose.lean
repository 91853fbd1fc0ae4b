import Verif.Lemmas.Calls2
import Verif.Lemmas.Words
import Verif.Lemmas.Continued
import Verif.Lemmas.Boundary6
import Verif.Spec.Loose
/-
Helper lemmas: whitespace in front of fields that skip it.
-/
namespace Scn
open Spec

/-- Types whose values are looked for after whitespace: all but the characters. -/
def Dest.Skipper : Dest → Prop
  | .int .. | .bool | .string _ | .pointer | .view .. | .float .. => True
  | _ => False

/-- Fields that skip whitespace, and do not count it: without a specification, or with nothing but `L` and a letter in it, which is
    `s` for strings. -/
inductive SkipsFirst (e : Enc) (d : Dest) : Option (List Nat) → Prop
  | default : d.Skipper → SkipsFirst e d none
  | letter (w : Written) (t : List Nat) : d.Skipper → w.align = none → w.width = none → w.precision = none → w.Readable e d.argTy [] → w.render e ≠ [] →
      (∀ dst, d = .string dst → w.letter = none ∨ w.letter = some 115) → (∀ dst st, d = .view dst st → w.letter = none ∨ w.letter = some 115) →
      encodes e t = w.render e → SkipsFirst e d (some t)

theorem skipper_default {e wide : Enc} {d : Dest} (h : d.Skipper) : (d.defaultReader e wide).skipWs = true := by
  cases d <;> first | rfl | exact absurd h id

theorem skipper_specs {e wide : Enc} {loc : LocaleData} {old : Nat} {d : Dest} (h : d.Skipper) {sp : Specs}
    (h1 : ∀ dst, d = .string dst → strKind sp = some .word) (h2 : ∀ dst st, d = .view dst st → strKind sp = some .word) :
    (d.specsReader e wide loc old sp).skipWs = true := by
  cases d with
  | string dst =>
    show (match strKind sp with
      | some k => (stringReader e dst sp k).mapVal Val.string
      | none => (regexReader e dst loc sp).mapVal Val.string).skipWs = true
    rw [h1 dst rfl]; rfl
  | view dst st =>
    show (match strKind sp with
      | some k => (viewReader e dst st sp k).mapVal Val.string
      | none => (regexViewReader e dst st loc sp).mapVal Val.string).skipWs = true
    rw [h2 dst st rfl]; rfl
  | int T ty => rfl
  | bool => rfl
  | pointer => rfl
  | float ty cv seg => rfl
  | char => exact absurd h id
  | wchar => exact absurd h id
  | codePoint => exact absurd h id

theorem defaultRead_afterSpaces {e : Enc} {rd : Reader Val} (h : rd.skipWs = true) {cps : List Nat} (hc : ∀ c ∈ cps, IsScalar c) :
    defaultRead e rd (fun _ => .contiguous) (encodes e cps) = afterSpaces e (rd.read .contiguous) cps := by
  unfold defaultRead afterSpaces
  have hiff : cps.takeWhile isSpace = cps ↔ cps.dropWhile isSpace = [] := (dropWhile_nil_iff _ _).symm
  by_cases hnil : encodes e cps = []
  · have : cps = [] := (encodes_eq_nil e cps).1 hnil
    subst this
    rw [if_pos hnil, if_pos (by rfl)]
  · rw [if_neg hnil, if_pos h, skipSpace_encodes e _ _ hc (by cases e <;> trivial)]
    by_cases hx : cps.dropWhile isSpace = []
    · rw [if_pos ⟨rfl, hiff.2 hx⟩, if_pos hx]; rfl
    · rw [if_neg (fun hh => hx (hiff.1 hh.2)), if_neg hx]; rfl

theorem dropWhile_twice (p : Nat → Bool) : ∀ l : List Nat, (l.dropWhile p).dropWhile p = l.dropWhile p := by
  intro l
  induction l with
  | nil => rfl
  | cons a l ih =>
    cases h : p a with
    | true => rw [List.dropWhile_cons_of_pos h]; exact ih
    | false => rw [List.dropWhile_cons_of_neg (by simp [h]), List.dropWhile_cons_of_neg (by simp [h])]

/-- A reader that looks for its text after whitespace. -/
def AfterSpaces (e : Enc) (rd : List Nat → Res (Val × List Nat)) : Prop :=
  (∃ f, ∀ cps, (∀ c ∈ cps, IsScalar c) → rd (encodes e cps) = afterSpaces e f cps) ∨ ∀ cps, (∀ c ∈ cps, IsScalar c) → ∀ q, rd (encodes e cps) ≠ .ok q

theorem skipsFirst_read {e wide : Enc} {cfg : RegexCfg} {loc : LocaleData} {old : Nat} {ds : List Dest} {id : Nat} {d : Dest} (hd : ds[id]? = some d)
    {gap : List Nat} {spec : Option (List Nat)} {rd : List Nat → Res (Val × List Nat)} (h : SkipsFirst e d spec)
    (hm : FieldMeans (stdEnv e wide cfg loc old ds) ⟨gap, id, spec.map (encodes e), rd⟩) (hcust : d.argTy ≠ .custom) : AfterSpaces e rd := by
  cases h with
  | default hs =>
    have hm' : rd = (stdEnv e wide cfg loc old ds).readDefault id := hm
    refine Or.inl ⟨(d.defaultReader e wide).read .contiguous, fun cps hc => ?_⟩
    rw [hm']
    simp only [stdEnv]
    rw [hd]
    exact defaultRead_afterSpaces (skipper_default hs) hc
  | letter w t hs ha hw hp hr hne hl1 hl2 ht =>
    have hty : (stdEnv e wide cfg loc old ds).argTy id = d.argTy := std_argTy hd
    unfold FieldMeans at hm
    simp only [Option.map_some] at hm
    rw [if_neg (by rw [hty]; exact hcust)] at hm
    obtain ⟨sp, h1, h2⟩ := hm
    have h1' := h1 []
    rw [ht, hty] at h1'
    obtain ⟨sp', h3, h4⟩ := parseSpecs_written cfg e d.argTy w [] ⟨hr.align, hr.width, hr.precision, hr.localized, hr.letter, fun h => absurd h hne⟩
    have h1'' : parseSpecs cfg e d.argTy ⟨{}, false⟩ (w.render e ++ 125 :: []) = some (⟨sp, false⟩, [125]) := h1'
    rw [h3] at h1''
    cases h1''
    obtain ⟨g1, g2, g3, g4, g5, _, _, _, _, _, _, _⟩ := h4
    have hplain : Plain sp := by
      refine ⟨?_, ?_, ?_⟩
      · rw [g1, hw]; rfl
      · rw [g2, hp]; rfl
      · rw [g5, ha]; rfl
    have hword : (w.letter = none ∨ w.letter = some 115) → strKind sp = some .word := by
      rintro (hx | hx)
      · rw [hx] at g4
        have g4 : sp.type = .none := g4
        unfold strKind; rw [g4]
      · rw [hx] at g4
        have g4 : sp.type = .string := g4
        have g5' : sp.align = .none := hplain.align
        unfold strKind; rw [g4]
        dsimp only
        rw [if_neg (by rw [g5']; decide)]
    have hskip : (d.specsReader e wide loc old sp).skipWs = true :=
      skipper_specs hs (fun dst hx => hword (hl1 dst hx)) (fun dst st hx => hword (hl2 dst st hx))
    cases hrt : runTypeCheck d.argTy sp with
    | none =>
      refine Or.inr fun cps hc q => ?_
      rw [h2]; simp only [stdEnv]; rw [hd]; unfold Dest.readSpecs; simp only [hrt]
      intro hx; cases hx
    | some b =>
      cases b with
      | false =>
        refine Or.inr fun cps hc q => ?_
        rw [h2]; simp only [stdEnv]; rw [hd]; unfold Dest.readSpecs; simp only [hrt]
        intro hx; cases hx
      | true =>
        refine Or.inl ⟨(d.specsReader e wide loc old sp).read .contiguous, fun cps hc => ?_⟩
        rw [h2]
        exact std_plain hd hrt hplain hskip hc

/-- Whitespace in the format string makes no difference to such a reader. -/
theorem spaced_read {e wide : Enc} {cfg : RegexCfg} {loc : LocaleData} {old : Nat} {ds : List Dest} {rd : List Nat → Res (Val × List Nat)}
    (h : AfterSpaces e rd) {ws cps : List Nat} (hws : ∀ c ∈ ws, IsScalar c ∧ isSpace c = true) (hc : ∀ c ∈ cps, IsScalar c) (q : Val × List Nat) :
    (litStep (stdEnv e wide cfg loc old ds) (encodes e ws) (encodes e cps)).bind rd = .ok q ↔ rd (encodes e cps) = .ok q := by
  by_cases hwn : ws = []
  · subst hwn
    have : encodes e ([] : List Nat) = [] := rfl
    rw [this, litStep_nil, Res.bind_ok]
  have hcd : ∀ c ∈ cps.dropWhile isSpace, IsScalar c := fun c hx => hc c ((List.dropWhile_sublist _).subset hx)
  by_cases hne : cps.dropWhile isSpace = []
  · have hno : ∀ q, rd (encodes e cps) ≠ .ok q := by
      intro q hx
      rcases h with ⟨f, hf⟩ | hf
      · rw [hf cps hc] at hx; unfold afterSpaces at hx; rw [if_pos hne] at hx; cases hx
      · exact hf cps hc q hx
    have hno0 : ∀ q, rd (encodes e []) ≠ .ok q := by
      intro q hx
      rcases h with ⟨f, hf⟩ | hf
      · rw [hf [] (by intro c hx; cases hx)] at hx; unfold afterSpaces at hx; rw [if_pos (by rfl)] at hx; cases hx
      · exact hf [] (by intro c hx; cases hx) q hx
    refine ⟨fun hx => ?_, fun hx => absurd hx (hno q)⟩
    exfalso
    obtain ⟨r, f, h1, _, _, h3, _⟩ := litLoop_spec (stdEnv e wide cfg loc old ds) (stdEnv_skips e wide cfg loc old ds)
      (encodes e ws).length ws cps (fun c h => ⟨(hws c h).1, Or.inl (hws c h).2⟩) hc (Nat.le_refl _)
    have h1' : litLoop (stdEnv e wide cfg loc old ds) (encodes e ws).length (encodes e cps) (encodes e ws) = some (encodes e r, f) := h1
    unfold litStep at hx
    rw [h1'] at hx
    cases f with
    | some y => cases hx
    | none =>
      have hm := h3 rfl
      rw [matchText_spaces ws (fun c h => (hws c h).2), if_neg hwn, hne] at hm
      cases hm
      exact hno0 q hx
  · rw [litStep_spaces e wide cfg loc old ds ws cps hws hc hne, if_neg hwn, Res.bind_ok]
    rcases h with ⟨f, hf⟩ | hf
    · rw [hf cps hc, hf _ hcd]
      unfold afterSpaces
      rw [dropWhile_twice]
    · exact ⟨fun hx => absurd hx (hf _ hcd q), fun hx => absurd hx (hf _ hc q)⟩

/-- What is asked of a field: whitespace is put only behind text (or nothing), and before a field that skips it. -/
structure Spec.LooseField.Ok (e wide : Enc) (cfg : RegexCfg) (loc : LocaleData) (old : Nat) (ds : List Dest) (x : LooseField Val) : Prop where
  gap : ∀ c ∈ x.gap, Simple e c
  gapBrace : NoBrace (encodes e x.gap)
  ws : ∀ c ∈ x.ws, IsScalar c ∧ isSpace c = true
  behind : x.ws = [] ∨ EndsInText x.gap
  spec : ∀ t, x.spec = some t → ∀ c ∈ t, IsScalar c
  means : FieldMeans (stdEnv e wide cfg loc old ds) (x.written e false)
  skips : x.ws = [] ∨ ∃ d, ds[x.id]? = some d ∧ SkipsFirst e d x.spec

/-- What is read by a field ends between characters. -/
theorem field_between {e wide : Enc} {cfg : RegexCfg} {loc : LocaleData} (hloc : PlainLocale e loc) {old : Nat} {ds : List Dest}
    (hds : ∀ d ∈ ds, d.ByCharacter e) {gap : List Nat} {id : Nat} (hid : id < ds.length) {spec : Option (List Nat)} {rd : List Nat → Res (Val × List Nat)}
    (hspec : ∀ t, spec = some t → ∀ c ∈ t, IsScalar c) (hm : FieldMeans (stdEnv e wide cfg loc old ds) ⟨gap, id, spec.map (encodes e), rd⟩)
    {cps : List Nat} (hc : ∀ c ∈ cps, IsScalar c) {v : Val} {r : List Nat} (h : rd (encodes e cps) = .ok (v, r)) : Between e cps r := by
  have hd : ds[id]? = some ds[id] := List.getElem?_eq_getElem hid
  have hb := hds ds[id] (List.getElem_mem hid)
  cases spec with
  | none =>
    have hm' : rd = (stdEnv e wide cfg loc old ds).readDefault id := hm
    rw [hm'] at h
    simp only [stdEnv] at h
    rw [hd] at h
    exact defaultRead_keeps (defaultReader_keeps e wide hb) (goodLayouts_contiguous e) hc h
  | some t =>
    have hty : (stdEnv e wide cfg loc old ds).argTy id = ds[id].argTy := std_argTy hd
    unfold FieldMeans at hm
    simp only [Option.map_some] at hm
    rw [if_neg (by rw [hty]; exact (byCharacter_type hb).1)] at hm
    obtain ⟨sp, h1, h2⟩ := hm
    rw [h2] at h
    simp only [stdEnv] at h
    rw [hd] at h
    have hx : encodes e (t ++ [125]) = encodes e t ++ [125] := by
      rw [encodes_append]; cases e <;> rfl
    refine readSpecs_keeps hloc hb (goodLayouts_contiguous e) (f := t ++ [125]) ?_ (pos := encodes e t ++ [125]) ?_ (h1 []) rfl hc h
    · intro c hx
      rcases List.mem_append.1 hx with hx | hx
      · exact hspec t rfl c hx
      · rw [List.mem_singleton.1 hx]; unfold IsScalar; decide
    · rw [hx]; exact List.suffix_refl _

theorem litStep_between {e wide : Enc} {cfg : RegexCfg} {loc : LocaleData} {old : Nat} {ds : List Dest} {t cps : List Nat} (ht : ∀ c ∈ t, Simple e c)
    (hc : ∀ c ∈ cps, IsScalar c) {r : List Nat} (h : litStep (stdEnv e wide cfg loc old ds) (encodes e t) (encodes e cps) = .ok r) :
    ∃ y, r = encodes e y ∧ ∀ c ∈ y, IsScalar c := by
  obtain ⟨y, f, h1, h2, _⟩ := litLoop_spec (stdEnv e wide cfg loc old ds) (stdEnv_skips e wide cfg loc old ds)
    (encodes e t).length t cps ht hc (Nat.le_refl _)
  have h1' : litLoop (stdEnv e wide cfg loc old ds) (encodes e t).length (encodes e cps) (encodes e t) = some (encodes e y, f) := h1
  unfold litStep at h
  rw [h1'] at h
  cases f with
  | some x => cases h
  | none => cases h; exact ⟨y, rfl, h2⟩

theorem loose_inOrder {e wide : Enc} {cfg : RegexCfg} {loc : LocaleData} (hloc : PlainLocale e loc) {old : Nat} {ds : List Dest}
    (hds : ∀ d ∈ ds, d.ByCharacter e) (last : List Nat) (xs : List (LooseField Val)) :
    (∀ x ∈ xs, x.Ok e wide cfg loc old ds) → (∀ x ∈ xs, x.id < ds.length) → ∀ cps, (∀ c ∈ cps, IsScalar c) → ∀ q,
      (inOrder (litStep (stdEnv e wide cfg loc old ds)) (xs.map (LooseField.written e true)) last (encodes e cps) = .ok q ↔
       inOrder (litStep (stdEnv e wide cfg loc old ds)) (xs.map (LooseField.written e false)) last (encodes e cps) = .ok q) := by
  induction xs with
  | nil => intro _ _ cps _ q; exact Iff.rfl
  | cons x xs ih =>
    intro hok hid cps hc q
    have hx := hok x (by simp)
    have hxid := hid x (by simp)
    have ih := ih (fun y hy => hok y (List.mem_cons_of_mem _ hy)) fun y hy => hid y (List.mem_cons_of_mem _ hy)
    have hstep : litStep (stdEnv e wide cfg loc old ds) (x.written e true).gap (encodes e cps) =
        (litStep (stdEnv e wide cfg loc old ds) (encodes e x.gap) (encodes e cps)).bind fun r => litStep (stdEnv e wide cfg loc old ds) (encodes e x.ws) r := by
      show litStep _ (encodes e (x.gap ++ x.ws)) _ = _
      rw [encodes_append]
      refine litStep_append_encodes (stdEnv e wide cfg loc old ds) x.ws (fun c h => (hx.ws c h).1) _ x.gap (encodes e cps) (Nat.le_refl _) hx.gap ?_
      intro c d h1 h2 h3
      rcases hx.behind with hw | hw
      · rw [hw] at h2; cases h2
      · rw [hw c h1] at h3; cases h3
    have hgap : (x.written e false).gap = encodes e x.gap := by
      show encodes e (x.gap ++ []) = _
      rw [List.append_nil]
    simp only [List.map_cons, inOrder]
    rw [hstep, hgap]
    have hr1 : (x.written e true).read = x.read := rfl
    have hr2 : (x.written e false).read = x.read := rfl
    have hi1 : (x.written e true).id = x.id := rfl
    have hi2 : (x.written e false).id = x.id := rfl
    rw [hr1, hr2, hi1, hi2]
    cases hl : litStep (stdEnv e wide cfg loc old ds) (encodes e x.gap) (encodes e cps) with
    | ub => exact Iff.rfl
    | err y => exact Iff.rfl
    | ok s1 =>
      obtain ⟨y, rfl, hy⟩ := litStep_between hx.gap hc hl
      rw [Res.bind_ok, Res.bind_ok]
      have hread : ∀ p, (litStep (stdEnv e wide cfg loc old ds) (encodes e x.ws) (encodes e y)).bind x.read = .ok p ↔ x.read (encodes e y) = .ok p := by
        intro p
        rcases hx.skips with hw | ⟨d, hd, hs⟩
        · rw [hw]
          have : encodes e ([] : List Nat) = [] := rfl
          rw [this, litStep_nil, Res.bind_ok]
        · exact spaced_read (skipsFirst_read hd hs hx.means (byCharacter_type (hds d (List.mem_of_getElem? hd))).1) hx.ws hy p
      have hassoc : ∀ (a : Res (List Nat)) (k : Val × List Nat → Res (List (Nat × Val) × List Nat)),
          (a.bind fun s1 => (x.read s1).bind k) = (a.bind x.read).bind k := by
        intro a k; cases a <;> rfl
      rw [hassoc]
      have hok_bind : ∀ (a : Res (Val × List Nat)) (k : Val × List Nat → Res (List (Nat × Val) × List Nat)),
          a.bind k = .ok q ↔ ∃ p, a = .ok p ∧ k p = .ok q := by
        intro a k
        cases a with
        | ub => exact ⟨fun h => (by cases h), fun ⟨p, h, _⟩ => (by cases h)⟩
        | err z => exact ⟨fun h => (by cases h), fun ⟨p, h, _⟩ => (by cases h)⟩
        | ok p => exact ⟨fun h => ⟨p, rfl, h⟩, fun ⟨p', h, h'⟩ => (by cases h; exact h')⟩
      rw [hok_bind, hok_bind]
      have hmap : ∀ (a : Res (List (Nat × Val) × List Nat)) (g : List (Nat × Val) × List Nat → List (Nat × Val) × List Nat),
          a.map g = .ok q ↔ ∃ p, a = .ok p ∧ g p = q := by
        intro a g
        cases a with
        | ub => exact ⟨fun h => (by cases h), fun ⟨p, h, _⟩ => (by cases h)⟩
        | err z => exact ⟨fun h => (by cases h), fun ⟨p, h, _⟩ => (by cases h)⟩
        | ok p => exact ⟨fun h => ⟨p, rfl, (by cases h; rfl)⟩, fun ⟨p', h, h'⟩ => (by cases h; rw [← h']; rfl)⟩
      have hrest : ∀ p : Val × List Nat, x.read (encodes e y) = .ok p → ∀ q,
          (inOrder (litStep (stdEnv e wide cfg loc old ds)) (xs.map (LooseField.written e true)) last p.2 = .ok q ↔
           inOrder (litStep (stdEnv e wide cfg loc old ds)) (xs.map (LooseField.written e false)) last p.2 = .ok q) := by
        intro p hp q
        obtain ⟨z, hz, hpz⟩ := field_between hloc hds hxid hx.spec hx.means hy (v := p.1) (r := p.2) hp
        rw [hpz]
        exact ih z (fun c h => hy c (hz.subset h)) q
      constructor
      · rintro ⟨p, h1, h2⟩
        have h1 := (hread p).1 h1
        obtain ⟨p', h3, h4⟩ := (hmap _ _).1 h2
        exact ⟨p, h1, (hmap _ _).2 ⟨p', (hrest p h1 p').1 h3, h4⟩⟩
      · rintro ⟨p, h1, h2⟩
        obtain ⟨p', h3, h4⟩ := (hmap _ _).1 h2
        exact ⟨p, (hread p).2 h1, (hmap _ _).2 ⟨p', (hrest p h1 p').2 h3, h4⟩⟩

end Scn
