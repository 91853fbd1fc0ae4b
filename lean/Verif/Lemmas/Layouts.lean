import Verif.Lemmas.Simulate
import Verif.Lemmas.Defined5
import Verif.Lemmas.Buffer2
import Verif.Model.BufScan
import Verif.Lemmas.Localized
import Verif.Props.Float
/-
ASCII text is read alike from a string and from a source in segments.
-/
namespace Scn
open Spec

/-- Text of `char`s that every way of presenting a source treats alike: ASCII, without the byte 16 of
    `C07_counterexample`. Wide text is not restricted. If floating-point numbers are read (`fl`), no `0x` is without a
    hexadecimal digit after it (`C39_violated`). -/
def AsciiText (e : Enc) (fl : Prop) (s : List Nat) : Prop :=
  (e = .utf8 → ∀ c ∈ s, c < 128 ∧ c ≠ 16) ∧ (fl → ∀ t, t <:+ s → ¬ BarePrefix t)

theorem AsciiText.suffix {e : Enc} {fl : Prop} {s t : List Nat} (h : AsciiText e fl s) (ht : t <:+ s) : AsciiText e fl t :=
  ⟨fun he c hc => h.1 he c (ht.subset hc), fun hf u hu => h.2 hf u (hu.trans ht)⟩
theorem AsciiText.units {e : Enc} {fl : Prop} {s : List Nat} (h : AsciiText e fl s) : UnitsOk e s := fun he c hc => by have := (h.1 he c hc).1; omega

theorem readUntilSpace_plain {e : Enc} {fl : Prop} {s : List Nat} (h : AsciiText e fl s) (l : Layout) :
    readUntilSpace e l s = readUntilSpace e .contiguous s := by
  cases e with
  | utf8 =>
    cases l with
    | contiguous => rfl
    | segmented k => exact (C41_space_search_ascii k s fun c hc => (h.1 rfl c hc).1).1
  | utf16 => rfl
  | utf32 => rfl

theorem readWhileSpace_plain {e : Enc} {fl : Prop} {s : List Nat} (h : AsciiText e fl s) (l : Layout) :
    readWhileSpace e l s = readWhileSpace e .contiguous s := by
  cases e with
  | utf8 =>
    cases l with
    | contiguous => rfl
    | segmented k => exact (C41_space_search_ascii k s fun c hc => (h.1 rfl c hc).1).2
  | utf16 => rfl
  | utf32 => rfl

theorem skipSpace_plain {e : Enc} {fl : Prop} {s : List Nat} (h : AsciiText e fl s) (l : Layout) (b : Bool) :
    skipSpace e l b s = skipSpace e .contiguous b s := by
  unfold skipSpace; rw [readWhileSpace_plain h l]

theorem afterSign_mem {s : List Nat} {c : Nat} (h : (afterSign s).head? = some c) : c ∈ s := by
  cases s with
  | nil => simp [afterSign] at h
  | cons x xs =>
    simp only [afterSign] at h
    split at h
    · cases xs with
      | nil => simp at h
      | cons y ys => simp at h; simp [h]
    · simp at h; simp [h]

theorem readMatch2_plain {k k' : Src} (hn : k.narrow = k'.narrow) {s : List Nat} (h : k.narrow = true → ∀ c ∈ s, c ≠ 16) (l : Nat)
    (hl : l = 98 ∨ l = 120 ∨ l = 111) : readMatchingNocase k s [48, l] = readMatchingNocase k' s [48, l] := by
  rw [readMatch2 k s l hl, readMatch2 k' s l hl]
  match s, h with
  | [], _ => rfl
  | [_], _ => rfl
  | a :: c :: t, h =>
    dsimp only
    have : ∀ q : Src, q.narrow = k.narrow → ((a = 48 ∨ (q.contiguous = true ∧ q.narrow = true ∧ a = 16)) ↔ a = 48) := by
      intro q hq
      constructor
      · rintro (h1 | ⟨_, h2, h3⟩)
        · exact h1
        · exact absurd h3 (h (hq ▸ h2) a (by simp))
      · exact Or.inl
    simp only [this k rfl, this k' hn.symm]

theorem basePrefix_plain {k k' : Src} (hn : k.narrow = k'.narrow) {s : List Nat} (h : k.narrow = true → ∀ c ∈ s, c ≠ 16) (base : Nat) :
    basePrefix k s base = basePrefix k' s base := by
  unfold basePrefix basePrefixDetect octPrefix hexPrefix binPrefix
  rw [readMatch2_plain hn h 98 (by simp), readMatch2_plain hn h 120 (by simp), readMatch2_plain hn h 111 (by simp)]

theorem parseIntegerPrefix_plain {k k' : Src} (hn : k.narrow = k'.narrow) {s : List Nat} (h : k.narrow = true → ∀ c ∈ s, c ≠ 16)
    (base : Nat) : parseIntegerPrefix k s base = parseIntegerPrefix k' s base := by
  rw [parseIntegerPrefix_eq, parseIntegerPrefix_eq]
  cases s with
  | nil => rfl
  | cons c cs =>
    dsimp only
    unfold afterSignPrefix
    rw [basePrefix_plain hn (base := base)]
    intro hk x hx
    apply h hk
    split at hx
    · exact List.mem_cons_of_mem _ hx
    · exact hx

/-- A text and two ways of presenting it that the readers treat alike. -/
structure Alike (e : Enc) (fl : Prop) (l l' : Layout) (s : List Nat) : Prop where
  units : e = .utf8 → ∀ c ∈ s, c < 256 ∧ c ≠ 16
  word : readUntilSpace e l s = readUntilSpace e l' s
  bare : fl → ∀ t, t <:+ s → ¬ BarePrefix t

theorem AsciiText.alike {e : Enc} {fl : Prop} {s : List Nat} (h : AsciiText e fl s) (l l' : Layout) : Alike e fl l l' s where
  units he c hc := ⟨by have := (h.1 he c hc).1; omega, (h.1 he c hc).2⟩
  word := (readUntilSpace_plain h l).trans (readUntilSpace_plain h l').symm
  bare := h.2

theorem readInt_plain {e : Enc} {fl : Prop} {l l' : Layout} {s : List Nat} (h : Alike e fl l l' s) {T : IntTy} (hT : T.Std) {sp : IntSpecs}
    (hb : sp.base = 0 ∨ (2 ≤ sp.base ∧ sp.base ≤ 36)) : readInt (srcOf e l) T sp s = readInt (srcOf e l') T sp s := by
  obtain ⟨base, uo, sep⟩ := sp
  have he : (srcOf e l).narrow = true → e = .utf8 := by simp [srcOf]
  cases sep with
  | none =>
    have hq : (srcOf e l).narrow = true → (afterSign s).head? ≠ some 16 := fun hn hc => (h.units (he hn) 16 (afterSign_mem hc)).2 rfl
    have hby : (srcOf e l).narrow = true → ∀ c ∈ s, c < 256 := fun hn c hc => (h.units (he hn) c hc).1
    exact (readInt_W (srcOf e l) T hT base uo s hb (fun _ => hq) hby).trans
      (readInt_W (srcOf e l') T hT base uo s hb (fun _ => hq) hby).symm
  | some sep =>
    unfold readInt
    dsimp only
    rw [parseIntegerPrefix_plain (k := srcOf e l) (k' := srcOf e l') rfl (fun hn c hc => (h.units (he hn) c hc).2) base]
    rfl

/-- A reader that does not care how plain text is presented. -/
def Blind {V : Type} (e : Enc) (fl : Prop) (rd : Reader V) : Prop := ∀ l l' s, Alike e fl l l' s → rd.read l s = rd.read l' s

theorem Blind.const {V : Type} {e : Enc} {fl : Prop} {b : Bool} {f : List Nat → Res (V × List Nat)} : Blind e fl ⟨b, fun _ s => f s⟩ := fun _ _ _ _ => rfl

theorem Blind.mapVal {V W : Type} {e : Enc} {fl : Prop} {rd : Reader V} (h : Blind e fl rd) (f : V → W) : Blind e fl (rd.mapVal f) := by
  intro l l' s hs
  show (rd.read l s).map _ = (rd.read l' s).map _
  rw [h l l' s hs]

/-- A destination whose fields do not depend on the presentation of plain text: integers of the usual widths, views of text
    in one segment; floating-point numbers with conversions that read the longest numeral there is. -/
def Dest.Steady : Dest → Prop
  | .int T _ => T.Std
  | .float _ cv _ => ∃ round, ConvOk cv round
  | .view _ stored => stored = false
  | _ => True

/-- A floating-point destination. -/
def Dest.IsFloat : Dest → Prop
  | .float _ _ _ => True
  | _ => False

theorem readWord_plain {e dst : Enc} {fl : Prop} {l l' : Layout} {s : List Nat} (h : Alike e fl l l' s) : readWord e dst l s = readWord e dst l' s := by
  unfold readWord
  rw [h.word]

theorem stringEnd_plain {e : Enc} {fl : Prop} {l l' : Layout} {s : List Nat} (h : Alike e fl l l' s) (sp : Specs) (k : StrKind) :
    stringEnd e sp k l s = stringEnd e sp k l' s := by
  cases k <;> simp only [stringEnd]
  rw [h.word]

theorem readFloat_plain {e : Enc} {fl : Prop} {l l' : Layout} {s : List Nat} (h : Alike e fl l l' s) (hfl : fl) {cv : FloatConv Nat}
    (hcv : ∃ round, ConvOk cv round) (seg : Bool) (ty : Pres) :
    readFloatAs cv e (srcOf e l) seg .classic ty s = readFloatAs cv e (srcOf e l') seg .classic ty s :=
  C39_same_on_all_sources_partial hcv.choose_spec e e _ _ _ _ ty s (fun he c hc => (h.units (he.elim id id) c hc).1)
    fun _ sg t _ ht => h.bare hfl t ⟨sg, ht.symm⟩

theorem defaultReader_blind (e wide : Enc) {fl : Prop} {d : Dest} (hd : d.Steady) (hfl : d.IsFloat → fl) : Blind e fl (d.defaultReader e wide) := by
  cases d with
  | int T ty =>
    refine Blind.mapVal (fun l l' s hs => ?_) _
    exact readInt_plain hs hd (by decide)
  | float ty cv seg =>
    refine Blind.mapVal (fun l l' s hs => ?_) _
    exact readFloat_plain hs (hfl trivial) hd seg .none
  | string dst =>
    refine Blind.mapVal (fun l l' s hs => ?_) _
    exact readWord_plain hs
  | pointer =>
    refine Blind.mapVal (fun l l' s hs => ?_) _
    exact readInt_plain hs (by decide) (by decide)
  | view dst stored =>
    refine Blind.mapVal (fun l l' s hs => ?_) _
    show (stringEnd e {} .word l s).bind _ = (stringEnd e {} .word l' s).bind _
    rw [stringEnd_plain hs]
  | bool => exact Blind.mapVal Blind.const _
  | char => exact Blind.mapVal Blind.const _
  | wchar => exact Blind.mapVal Blind.const _
  | codePoint => exact Blind.mapVal Blind.const _

theorem getBase_range {sp : Specs} {b : Nat} (h : sp.getBase = some b) : b = 0 ∨ (2 ≤ b ∧ b ≤ 36) := by
  unfold Specs.getBase at h
  cases ht : sp.type <;> rw [ht] at h <;> cases h <;> decide

theorem intSpecs_blind (e : Enc) {fl : Prop} (loc : LocaleData) {T : IntTy} (hT : T.Std) (sp : Specs) : Blind e fl (intSpecsReader e loc T sp) := by
  intro l l' s hs
  unfold intSpecsReader
  dsimp only
  cases hb : sp.getBase with
  | none => rfl
  | some b => exact readInt_plain hs hT (getBase_range hb)

theorem specsReader_blind (e wide : Enc) {fl : Prop} (loc : LocaleData) (old : Nat) {d : Dest} (hd : d.Steady) {sp : Specs}
    (hre : strKind sp ≠ none) (hfl : d.IsFloat → fl ∧ sp.localized = false) : Blind e fl (d.specsReader e wide loc old sp) := by
  cases d with
  | int T ty => exact (intSpecs_blind e loc hd sp).mapVal _
  | float ty cv seg =>
    refine Blind.mapVal (fun l l' s hs => ?_) _
    obtain ⟨h1, h2⟩ := hfl trivial
    simp only [floatReader, h2]
    exact readFloat_plain hs h1 hd seg sp.type
  | char =>
    refine Blind.mapVal (fun l l' s hs => ?_) _
    simp only [charReader]
    rw [intSpecs_blind e loc (T := ⟨8, true⟩) (by decide) sp l l' s hs]
  | wchar =>
    refine Blind.mapVal (fun l l' s hs => ?_) _
    simp only [wcharReader]
    rw [intSpecs_blind e loc (T := ⟨if wide = .utf16 then 16 else 32, true⟩) (by split <;> decide) sp l l' s hs]
  | string dst =>
    simp only [Dest.specsReader]
    cases hk : strKind sp with
    | none => exact absurd hk hre
    | some k =>
      refine Blind.mapVal (fun l l' s hs => ?_) _
      cases k with
      | word => exact readWord_plain hs
      | _ => rfl
  | pointer =>
    refine Blind.mapVal (fun l l' s hs => ?_) _
    exact readInt_plain hs (by decide) (by decide)
  | view dst stored =>
    simp only [Dest.specsReader]
    cases hk : strKind sp with
    | none => exact absurd hk hre
    | some k =>
      refine Blind.mapVal (fun l l' s hs => ?_) _
      show (stringEnd e sp k l s).bind _ = (stringEnd e sp k l' s).bind _
      rw [stringEnd_plain hs]
  | bool => exact Blind.mapVal Blind.const _
  | codePoint => exact Blind.mapVal Blind.const _

theorem defaultRead_plain {V : Type} {e : Enc} {fl : Prop} {rd : Reader V} (hrd : Blind e fl rd) (lay lay' : List Nat → Layout) {s : List Nat}
    (h : AsciiText e fl s) : defaultRead e rd lay s = defaultRead e rd lay' s := by
  unfold defaultRead
  split
  · rfl
  · split
    · rw [skipSpace_plain h (lay s), skipSpace_plain h (lay' s)]
      cases hs : skipSpace e .contiguous false s with
      | ub => rfl
      | err x => rfl
      | ok it =>
        simp only [Res.bind_ok]
        refine hrd _ _ _ (AsciiText.alike (h.suffix ?_) _ _)
        unfold skipSpace at hs
        split at hs
        · cases hs
        · rename_i it' hw
          split at hs
          · cases hs
          · cases hs
            exact readWhileSpace_suffix _ _ _ _ hw
    · exact hrd _ _ s (h.alike _ _)

theorem argBefore_plain {e : Enc} {fl : Prop} (sp : Specs) (skipWs : Bool) {s : List Nat} (h : AsciiText e fl s) (l l' : Layout) :
    argBefore e sp skipWs l s = argBefore e sp skipWs l' s := by
  unfold argBefore
  split
  · rfl
  · rename_i h0
    unfold argPrefix
    rw [skipSpace_plain h l, skipSpace_plain h l']

theorem argAfter_plain {e : Enc} {fl : Prop} (sp : Specs) (skipWs : Bool) {s : List Nat} (h : AsciiText e fl s) (l l' : Layout) (p v : Int) :
    argAfter e sp skipWs l p v s = argAfter e sp skipWs l' p v s := by
  unfold argAfter argPostfix
  rw [skipSpace_plain h l, skipSpace_plain h l']

theorem argValue_plain {V : Type} {e : Enc} {fl : Prop} (sp : Specs) {rd : Reader V} (hrd : Blind e fl rd) {s : List Nat} (h : AsciiText e fl s)
    (l l' : Layout) (p : Int) : argValue e sp rd l p s = argValue e sp rd l' p s := by
  unfold argValue
  rw [hrd l l' s (h.alike l l')]

theorem argValue_suffix {V : Type} {e : Enc} {sp : Specs} {rd : Reader V} {l : Layout} {p : Int} {s : List Nat} {v : V}
    {q : List Nat} {w : Int} (hrd : Sound (rd.read l s) s) (h : argValue e sp rd l p s = .ok (v, q, w)) : q <:+ s := by
  unfold argValue at h
  split at h
  · split at h
    · cases h
    · dsimp only at h
      cases hr : rd.read (.segmented 0) (takeWidth e ((sp.precision : Int) - p) s) with
      | ub => rw [hr] at h; cases h
      | err x => rw [hr] at h; cases h
      | ok a =>
        rw [hr] at h
        simp only [Res.map, Res.ok.injEq, Prod.mk.injEq] at h
        rw [← h.2.1]
        exact List.drop_suffix _ _
  · cases hr : rd.read l s with
    | ub => rw [hr] at h; cases h
    | err x => rw [hr] at h; cases h
    | ok a =>
      rw [hr] at h
      simp only [Res.map, Res.ok.injEq, Prod.mk.injEq] at h
      rw [← h.2.1]
      exact hrd.2 a.1 a.2 hr

theorem argRead_ascii {V : Type} {e : Enc} {fl : Prop} {sp : Specs} (hs : sp.fill.units e ≠ []) {rd : Reader V} (hrd : Blind e fl rd)
    (hso : ∀ l s, UnitsOk e s → Sound (rd.read l s) s) (lay lay' : List Nat → Layout) {s : List Nat} (h : AsciiText e fl s) :
    argRead e sp rd lay s = argRead e sp rd lay' s := by
  unfold argRead
  rw [argBefore_plain sp rd.skipWs h (lay s) (lay' s)]
  have hb := argBefore_within hs rd.skipWs (lay' s) s h.units
  cases h1 : argBefore e sp rd.skipWs (lay' s) s with
  | ub => rfl
  | err x => rfl
  | ok b =>
    obtain ⟨b, pw⟩ := b
    have hpb : AsciiText e fl b := h.suffix (hb.2 b pw h1).1
    simp only [Res.bind_ok]
    rw [argValue_plain sp hrd hpb (lay b) (lay' b) pw]
    cases h2 : argValue e sp rd (lay' b) pw b with
    | ub => rfl
    | err x => rfl
    | ok r =>
      obtain ⟨v, q, w⟩ := r
      simp only [Res.bind_ok]
      rw [argAfter_plain sp rd.skipWs (hpb.suffix (argValue_suffix (hso _ _ hpb.units) h2)) (lay q) (lay' q) pw w]

theorem readSpecs_plain (e wide : Enc) {fl : Prop} (loc : LocaleData) (old : Nat) {d : Dest} (hd : d.Tame e) (hst : d.Steady) {sp : Specs}
    (hsp : SpecsOk e sp) (hre : strKind sp ≠ none) (hfl : d.IsFloat → fl ∧ sp.localized = false) (lay lay' : List Nat → Layout) {s : List Nat} (h : AsciiText e fl s) :
    d.readSpecs e wide loc old sp lay s = d.readSpecs e wide loc old sp lay' s := by
  unfold Dest.readSpecs
  obtain ⟨b, hb⟩ := runTypeCheck_total hd sp
  rw [hb]
  cases b with
  | false => rfl
  | true => exact argRead_ascii hsp.fill (specsReader_blind e wide loc old hst hre hfl) (specsReader_sound e wide loc old hd hsp hb) lay lay' h

theorem strKind_none {sp : Specs} (h : strKind sp = none) : sp.type = .regex ∨ sp.type = .regexEscaped := by
  unfold strKind at h
  cases ht : sp.type <;> rw [ht] at h <;> first
    | exact Or.inl rfl
    | exact Or.inr rfl
    | (cases h; done)
    | (dsimp only at h; split at h <;> cases h)

/-- A window that shows everything that remains, or does not apply. -/
def Wide (win : List Nat → Option Nat) (src : List Nat) : Prop := ∀ s, s <:+ src → ∀ k, win s = some k → s.length ≤ k

theorem windowRead_plain {V : Type} {e : Enc} {fl : Prop} {rd : Reader V} (hrd : Blind e fl rd) (hso : ∀ l s, UnitsOk e s → Sound (rd.read l s) s)
    (lay : List Nat → Layout) {win : List Nat → Option Nat} {s : List Nat} (h : AsciiText e fl s) (hw : ∀ k, win s = some k → s.length ≤ k) :
    windowRead e rd lay win s = defaultRead e rd (fun _ => .contiguous) s := by
  unfold windowRead
  split
  · exact defaultRead_plain hrd _ _ h
  · rename_i k hk
    rw [List.take_of_length_le (hw k hk)]
    have hs := defaultRead_sound rd hso (fun _ => .contiguous) s h.units
    cases hr : defaultRead e rd (fun _ => .contiguous) s with
    | ub => rfl
    | err x => rfl
    | ok a =>
      obtain ⟨v, q⟩ := a
      simp only [Res.map]
      rw [← List.suffix_iff_eq_drop.mp (hs.2 v q hr)]

/-- What the destinations of a call over a source in segments must be like. -/
def Calm (e : Enc) (fl : Prop) (ds : List Dest) : Prop := ∀ d ∈ ds, d.Tame e ∧ d.Steady ∧ (d.IsFloat → fl)

theorem buf_std {e wide : Enc} {fl : Prop} {cfg : RegexCfg} {loc : LocaleData} {old : Nat} {ds : List Dest} (hds : Calm e fl ds)
    {lay : List Nat → Layout} {win : List Nat → Option Nat} {src : List Nat} (A : Env Val)
    (hA : (A = stdEnv e wide cfg loc old ds ∧ Wide win src) ∨
      A = { stdEnv e wide cfg loc old ds with readDefault := fun _ _ => .ub }) :
    EnvSim A (bufEnv e wide cfg loc old lay win ds) (fun s => AsciiText e fl s ∧ s <:+ src) (fun f => 47 ∉ f ∧ (fl → 76 ∉ f)) := by
  have ho := stdEnv_ok e wide cfg loc old (fun d hd => (hds d hd).1) []
  have hcount : A.count = ds.length := by rcases hA with ⟨rfl, _⟩ | rfl <;> rfl
  have hty : ∀ id, A.argTy id = (stdEnv e wide cfg loc old ds).argTy id := by intro id; rcases hA with ⟨rfl, _⟩ | rfl <;> rfl
  have hsp : A.readSpecs = (stdEnv e wide cfg loc old ds).readSpecs := by rcases hA with ⟨rfl, _⟩ | rfl <;> rfl
  have hcfg : A.cfg = cfg := by rcases hA with ⟨rfl, _⟩ | rfl <;> rfl
  have henc : A.enc = e := by rcases hA with ⟨rfl, _⟩ | rfl <;> rfl
  have hskip : A.skip = readWhileSpace e .contiguous := by rcases hA with ⟨rfl, _⟩ | rfl <;> rfl
  have hkind : ∀ id, (A.argTy id).category ≠ none ∧ A.argTy id ≠ .custom := by
    intro id
    rw [hty]
    unfold Env.argTy
    split
    · rename_i hid
      have hid' : id < ds.length := hid
      show (((ds[id]?).map Dest.argTy).getD .none).category ≠ none ∧ ((ds[id]?).map Dest.argTy).getD .none ≠ .custom
      rw [List.getElem?_eq_getElem hid']
      exact tame_category (hds _ (List.getElem_mem hid')).1
    · exact ⟨by decide, by decide⟩
  exact {
    enc := henc.symm
    cfg := hcfg.symm
    count := hcount.symm
    ty := by rcases hA with ⟨rfl, _⟩ | rfl <;> rfl
    down := fun c s hs _ => ⟨hs.1.suffix (List.suffix_cons _ _), (List.suffix_cons _ _).trans hs.2⟩
    fdown := fun s t hs ht => ⟨fun hm => hs.1 (ht.subset hm), fun hf hm => hs.2 hf (ht.subset hm)⟩
    skip := fun s r hs h => by
      rw [hskip] at h
      refine ⟨(readWhileSpace_plain hs.1 (lay s)).trans h, ?_⟩
      have := readWhileSpace_suffix _ _ _ _ h
      exact ⟨hs.1.suffix this, this.trans hs.2⟩
    dflt := fun id s hs hid hne => by
      rcases hA with ⟨rfl, hw⟩ | rfl
      · have hid' : id < ds.length := hid
        have hd := hds _ (List.getElem_mem hid')
        have hso := ho.dflt id s hid hs.1.units
        refine ⟨?_, fun v r h => ⟨hs.1.suffix (hso.2 v r h), (hso.2 v r h).trans hs.2⟩⟩
        show (match ds[id]? with | none => Res.ub | some d => windowRead e (d.defaultReader e wide) lay win s) =
          (match ds[id]? with | none => Res.ub | some d => defaultRead e (d.defaultReader e wide) (fun _ => .contiguous) s)
        rw [List.getElem?_eq_getElem hid']
        exact windowRead_plain (defaultReader_blind e wide hd.2.1 hd.2.2) (defaultReader_sound e wide hd.1) lay hs.1 (hw s hs.2)
      · exact absurd rfl hne
    specs := fun id pos setter p s hs hpos hid hps herr hne => by
      have hid' : id < ds.length := hcount ▸ hid
      have hd := hds _ (List.getElem_mem hid')
      rw [hcfg, henc] at hps
      have hacc := parseSpecs_accepted hps herr
      rw [hsp]
      have hso : Sound ((stdEnv e wide cfg loc old ds).readSpecs id setter.specs s) s := by
        show Sound (match ds[id]? with | none => .ub | some d => _) s
        rw [List.getElem?_eq_getElem hid']
        exact readSpecs_sound e wide loc old hd.1 hacc.ok _ s hs.1.units
      refine ⟨?_, fun v r h => ⟨hs.1.suffix (hso.2 v r h), (hso.2 v r h).trans hs.2⟩⟩
      show (match ds[id]? with | none => Res.ub | some d => d.readSpecs e wide loc old setter.specs lay s) =
        (match ds[id]? with | none => Res.ub | some d => d.readSpecs e wide loc old setter.specs (fun _ => .contiguous) s)
      rw [List.getElem?_eq_getElem hid']
      exact readSpecs_plain e wide loc old hd.1 hd.2.1 hacc.ok (fun h => hpos.1 (hacc.regex (strKind_none h)))
        (fun h => ⟨hd.2.2 h, parseSpecs_locale (hpos.2 (hd.2.2 h)) hps herr⟩) lay _ hs.1
    custom := fun id => (hkind id).2
    types := fun id => (hkind id).1 }

end Scn
