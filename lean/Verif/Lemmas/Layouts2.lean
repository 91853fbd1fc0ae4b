import Verif.Lemmas.Layouts
import Verif.Lemmas.Boundary6
import Verif.Lemmas.Records
/-
Well-formed text is read alike from a string and from a source whose segments end between characters.
-/
namespace Scn
open Spec

theorem utf8_sixteen {cp : Nat} (h : cp ≠ 16) : 16 ∉ utf8 cp := by
  rcases utf8_cases cp with ⟨_, h1⟩ | ⟨_, h1⟩ | ⟨_, h1⟩ | ⟨_, h1⟩ <;> rw [h1] <;> simp <;> omega

/-- Text of whole characters: without the character 16 in a narrow source, and, if floating-point numbers are read, without
    `0x` before what is no hexadecimal digit. -/
structure GoodText (e : Enc) (fl : Prop) (cps : List Nat) : Prop where
  scalars : ∀ c ∈ cps, IsScalar c
  sixteen : e = .utf8 → 16 ∉ cps
  bare : fl → ∀ t, t <:+ encodes e cps → ¬ BarePrefix t

theorem GoodText.suffix {e : Enc} {fl : Prop} {cps t : List Nat} (h : GoodText e fl cps) (ht : t <:+ cps) : GoodText e fl t where
  scalars c hc := h.scalars c (ht.subset hc)
  sixteen he hc := h.sixteen he (ht.subset hc)
  bare hf u hu := by
    refine h.bare hf u (hu.trans ?_)
    obtain ⟨q, rfl⟩ := ht
    rw [encodes_split]
    exact List.suffix_append _ _

theorem GoodText.alike {e : Enc} {fl : Prop} {cps : List Nat} (h : GoodText e fl cps) {l l' : Layout} (hl : GoodLayout e l cps)
    (hl' : GoodLayout e l' cps) : Alike e fl l l' (encodes e cps) where
  units he c hc := by
    subst he
    refine ⟨encodes_unitsOk .utf8 h.scalars rfl c hc, ?_⟩
    rintro rfl
    obtain ⟨x, hx, hm⟩ := List.mem_flatMap.1 hc
    exact utf8_sixteen (fun h0 => h.sixteen rfl (h0 ▸ hx)) hm
  word := (C41_space_search_partial e l l' cps h.scalars hl hl').1
  bare := h.bare

theorem goodLayout_suffix {e : Enc} {lay : List Nat → Layout} (h : GoodLayouts e lay) {cps t : List Nat} (hs : ∀ c ∈ cps, IsScalar c)
    (ht : t <:+ cps) : GoodLayout e (lay (encodes e t)) t := h t fun c hc => hs c (ht.subset hc)

variable {V : Type}

/-- A padded field is read alike. -/
theorem argRead_alike {e : Enc} {fl : Prop} {sp : Specs} {F : PaddedField} (hF : Describes e sp F) {rd : Reader V} (hk : Keeps e rd.read)
    (hb : Blind e fl rd) {lay lay' : List Nat → Layout} (hlay : GoodLayouts e lay) (hlay' : GoodLayouts e lay') {cps : List Nat}
    (h : GoodText e fl cps) : argRead e sp rd lay (encodes e cps) = argRead e sp rd lay' (encodes e cps) := by
  have hs := h.scalars
  have hd : cps.drop (F.before rd.skipWs cps).length <:+ cps := List.drop_suffix _ _
  have hv := view_prefix F (cols (F.before rd.skipWs cps)) (cps.drop (F.before rd.skipWs cps).length)
  have hvs : ∀ x ∈ F.view (cols (F.before rd.skipWs cps)) (cps.drop (F.before rd.skipWs cps).length), IsScalar x :=
    fun x hx => hs x (hd.subset (hv.subset hx))
  -- the result of the reader at the value, in code points
  obtain ⟨y, h1, h2⟩ : ∃ y : Res (V × List Nat),
      rd.read (if F.precision = 0 then lay (encodes e (cps.drop (F.before rd.skipWs cps).length)) else .segmented 0)
        (encodes e (F.view (cols (F.before rd.skipWs cps)) (cps.drop (F.before rd.skipWs cps).length))) = y.map (fun r => (r.1, encodes e r.2)) ∧
      ∀ v r, y = .ok (v, r) → r <:+ F.view (cols (F.before rd.skipWs cps)) (cps.drop (F.before rd.skipWs cps).length) := by
    cases hx : rd.read (if F.precision = 0 then lay (encodes e (cps.drop (F.before rd.skipWs cps).length)) else .segmented 0)
        (encodes e (F.view (cols (F.before rd.skipWs cps)) (cps.drop (F.before rd.skipWs cps).length))) with
    | ub => exact ⟨.ub, rfl, fun _ _ h => by cases h⟩
    | err x => exact ⟨.err x, rfl, fun _ _ h => by cases h⟩
    | ok x =>
      obtain ⟨t, ht, he⟩ := hk _ _ hvs x.1 x.2 hx
      exact ⟨.ok (x.1, t), by simp only [Res.map]; rw [← he], fun _ _ h => by cases h; exact ht⟩
  have h3 : rd.read (if F.precision = 0 then lay' (encodes e (cps.drop (F.before rd.skipWs cps).length)) else .segmented 0)
        (encodes e (F.view (cols (F.before rd.skipWs cps)) (cps.drop (F.before rd.skipWs cps).length))) = y.map (fun r => (r.1, encodes e r.2)) := by
    rw [← h1]
    by_cases hp : F.precision = 0
    · simp only [if_pos hp]
      have hview : F.view (cols (F.before rd.skipWs cps)) (cps.drop (F.before rd.skipWs cps).length) = cps.drop (F.before rd.skipWs cps).length := by
        unfold PaddedField.view; rw [if_pos hp]
      rw [hview]
      exact hb _ _ _ ((h.suffix hd).alike (goodLayout_suffix hlay' hs hd) (goodLayout_suffix hlay hs hd))
    · simp only [if_neg hp]
  rw [argRead_at e sp F hF rd lay cps hs (fun t ht => goodLayout_suffix hlay hs ht) (fun _ => y) _ rfl h1 h2,
    argRead_at e sp F hF rd lay' cps hs (fun t ht => goodLayout_suffix hlay' hs ht) (fun _ => y) _ rfl h3 h2]

/-- A field without specifications is read alike. -/
theorem defaultRead_alike {e : Enc} {fl : Prop} {rd : Reader V} (hb : Blind e fl rd) {lay lay' : List Nat → Layout} (hlay : GoodLayouts e lay)
    (hlay' : GoodLayouts e lay') {cps : List Nat} (h : GoodText e fl cps) :
    defaultRead e rd lay (encodes e cps) = defaultRead e rd lay' (encodes e cps) := by
  have hs := h.scalars
  unfold defaultRead
  split
  · rfl
  · split
    · rw [skipSpace_encodes e _ cps hs (hlay cps hs), skipSpace_encodes e _ cps hs (hlay' cps hs)]
      split
      · rfl
      · simp only [Res.bind_ok]
        have hd : cps.dropWhile isSpace <:+ cps := List.dropWhile_suffix _
        exact hb _ _ _ ((h.suffix hd).alike (goodLayout_suffix hlay hs hd) (goodLayout_suffix hlay' hs hd))
    · exact hb _ _ _ (h.alike (hlay cps hs) (hlay' cps hs))

theorem windowRead_alike {e : Enc} {fl : Prop} {rd : Reader V} (hk : Keeps e rd.read) (hb : Blind e fl rd) {lay : List Nat → Layout}
    (hlay : GoodLayouts e lay) {win : List Nat → Option Nat} {cps : List Nat} (h : GoodText e fl cps)
    (hw : ∀ k, win (encodes e cps) = some k → (encodes e cps).length ≤ k) :
    windowRead e rd lay win (encodes e cps) = defaultRead e rd (fun _ => .contiguous) (encodes e cps) := by
  unfold windowRead
  split
  · exact defaultRead_alike hb hlay (goodLayouts_contiguous e) h
  · rename_i k hk'
    rw [List.take_of_length_le (hw k hk')]
    cases hr : defaultRead e rd (fun _ => .contiguous) (encodes e cps) with
    | ub => rfl
    | err x => rfl
    | ok a =>
      obtain ⟨v, q⟩ := a
      simp only [Res.map]
      obtain ⟨t, ⟨w, rfl⟩, rfl⟩ := defaultRead_keeps hk (goodLayouts_contiguous e) h.scalars hr
      have : encodes e t <:+ encodes e (w ++ t) := by rw [encodes_split]; exact List.suffix_append _ _
      rw [← List.suffix_iff_eq_drop.mp this]

theorem readSpecs_alike {cfg : RegexCfg} {e wide : Enc} {fl : Prop} {loc : LocaleData} (hloc : PlainLocale e loc) {old : Nat} {d : Dest}
    (hd : d.ByCharacter e) (hst : d.Steady) {lay lay' : List Nat → Layout} (hlay : GoodLayouts e lay) (hlay' : GoodLayouts e lay') {f : List Nat}
    (hf : ∀ c ∈ f, IsScalar c) {pos p : List Nat} (hpos : pos <:+ encodes e f) {ty : ArgTy} {setter : Setter}
    (hp : parseSpecs cfg e ty ⟨{}, false⟩ pos = some (setter, p)) (he : setter.err = false) (hre : strKind setter.specs ≠ none)
    (hfl : d.IsFloat → fl ∧ setter.specs.localized = false) {cps : List Nat} (h : GoodText e fl cps) :
    d.readSpecs e wide loc old setter.specs lay (encodes e cps) = d.readSpecs e wide loc old setter.specs lay' (encodes e cps) := by
  unfold Dest.readSpecs
  split
  · rfl
  · rfl
  · obtain ⟨F, hF⟩ := (parseSpecs_fillOk hf hpos hp he).describes
    exact argRead_alike hF (specsReader_keeps hloc (parseSpecs_accepted hp he).ok.set hd) (specsReader_blind e wide loc old hst hre hfl) hlay hlay' h

/-- The call over a source in segments does what the call over a string does, on well-formed text, if the format string
    is ASCII. -/
theorem buf_text {e wide : Enc} {fl : Prop} {cfg : RegexCfg} {loc : LocaleData} (hloc : PlainLocale e loc) {old : Nat} {ds : List Dest}
    (hds : ∀ d ∈ ds, d.ByCharacter e ∧ d.Steady ∧ (d.IsFloat → fl)) {lay : List Nat → Layout} (hlay : GoodLayouts e lay)
    {win : List Nat → Option Nat} {cps : List Nat} (h : GoodText e fl cps) (A : Env Val)
    (hA : (A = stdEnv e wide cfg loc old ds ∧ Wide win (encodes e cps)) ∨
      A = { stdEnv e wide cfg loc old ds with readDefault := fun _ _ => .ub }) :
    EnvSim A (bufEnv e wide cfg loc old lay win ds) (Between e cps) (fun f => 47 ∉ f ∧ (fl → 76 ∉ f) ∧ ∀ u ∈ f, u < 128) := by
  have hcount : A.count = ds.length := by rcases hA with ⟨rfl, _⟩ | rfl <;> rfl
  have hty : ∀ id, A.argTy id = (bufEnv e wide cfg loc old lay win ds).argTy id := by intro id; rcases hA with ⟨rfl, _⟩ | rfl <;> rfl
  have hsp : A.readSpecs = (stdEnv e wide cfg loc old ds).readSpecs := by rcases hA with ⟨rfl, _⟩ | rfl <;> rfl
  have hcfg : A.cfg = cfg := by rcases hA with ⟨rfl, _⟩ | rfl <;> rfl
  have henc : A.enc = e := by rcases hA with ⟨rfl, _⟩ | rfl <;> rfl
  have hskip : A.skip = readWhileSpace e .contiguous := by rcases hA with ⟨rfl, _⟩ | rfl <;> rfl
  have K := bufEnv_keeps (wide := wide) (cfg := cfg) hloc old (win := fun _ => none) (goodLayouts_contiguous e)
    (fun _ _ _ h => by cases h) (fun d hd => (hds d hd).1) h.scalars (f := []) (by simp)
  have KB := bufEnv_keeps (wide := wide) (cfg := cfg) hloc old (win := fun _ => none) hlay
    (fun _ _ _ h => by cases h) (fun d hd => (hds d hd).1) h.scalars (f := []) (by simp)
  exact {
    enc := henc.symm
    cfg := hcfg.symm
    count := hcount.symm
    ty := by rcases hA with ⟨rfl, _⟩ | rfl <;> rfl
    down := by
      rintro c s ⟨t, ht, hst⟩ ⟨f, hf, hc⟩
      obtain ⟨t', rfl, h'⟩ := encodes_single_head (fun c hc => h.scalars c (ht.subset hc)) hst.symm (single_ascii e (hf.2.2 c hc))
      exact ⟨t', (List.suffix_cons _ _).trans ht, h'⟩
    fdown := fun s t hs ht => ⟨fun hm => hs.1 (ht.subset hm), fun hf hm => hs.2.1 hf (ht.subset hm), fun u hu => hs.2.2 u (ht.subset hu)⟩
    skip := by
      rintro s r ⟨t, ht, rfl⟩ hr
      rw [hskip] at hr
      have hst : ∀ c ∈ t, IsScalar c := fun c hc => h.scalars c (ht.subset hc)
      refine ⟨?_, K.skip _ _ ⟨t, ht, rfl⟩ hr⟩
      show readWhileSpace e (lay (encodes e t)) (encodes e t) = some r
      rw [← hr]
      exact (C41_space_search_partial e _ _ t hst (hlay t hst) (goodLayouts_contiguous e t hst)).2
    dflt := by
      rintro id s ⟨t, ht, rfl⟩ hid hne
      rcases hA with ⟨rfl, hw⟩ | rfl
      · have hid' : id < ds.length := hid
        have hd := hds _ (List.getElem_mem hid')
        refine ⟨?_, fun v r hr => K.dflt id _ v r ⟨t, ht, rfl⟩ ?_⟩
        · show (match ds[id]? with | none => Res.ub | some d => windowRead e (d.defaultReader e wide) lay win (encodes e t)) =
            (match ds[id]? with | none => Res.ub | some d => defaultRead e (d.defaultReader e wide) (fun _ => .contiguous) (encodes e t))
          rw [List.getElem?_eq_getElem hid']
          refine windowRead_alike (defaultReader_keeps e wide hd.1) (defaultReader_blind e wide hd.2.1 hd.2.2) hlay (h.suffix ht) (hw _ ?_)
          obtain ⟨q, rfl⟩ := ht
          rw [encodes_split]
          exact List.suffix_append _ _
        · rw [← hr]
          rfl
      · exact absurd rfl hne
    specs := by
      rintro id pos setter p s ⟨t, ht, rfl⟩ hpos hid hps herr hne
      have hid' : id < ds.length := hcount ▸ hid
      have hd := hds _ (List.getElem_mem hid')
      rw [hcfg, henc] at hps
      have hpe : pos <:+ encodes e pos := by rw [encodes_asciis e _ hpos.2.2]; exact List.suffix_refl _
      have hsc : ∀ c ∈ pos, IsScalar c := fun c hc => by have := hpos.2.2 c hc; unfold IsScalar; omega
      have hacc := parseSpecs_accepted hps herr
      rw [hsp]
      refine ⟨?_, fun v r hr => ?_⟩
      · show (match ds[id]? with | none => Res.ub | some d => d.readSpecs e wide loc old setter.specs lay (encodes e t)) =
          (match ds[id]? with | none => Res.ub | some d => d.readSpecs e wide loc old setter.specs (fun _ => .contiguous) (encodes e t))
        rw [List.getElem?_eq_getElem hid']
        exact readSpecs_alike hloc hd.1 hd.2.1 hlay (goodLayouts_contiguous e) hsc hpe hps herr (fun h => hpos.1 (hacc.regex (strKind_none h)))
          (fun h => ⟨hd.2.2 h, parseSpecs_locale (hpos.2.1 (hd.2.2 h)) hps herr⟩) (h.suffix ht)
      · have hr' : (match ds[id]? with | none => Res.ub | some d => d.readSpecs e wide loc old setter.specs (fun _ => .contiguous) (encodes e t)) = .ok (v, r) := hr
        rw [List.getElem?_eq_getElem hid'] at hr'
        exact (readSpecs_keeps hloc hd.1 (goodLayouts_contiguous e) hsc hpe hps herr (fun c hc => h.scalars c (ht.subset hc)) hr').trans ht
    custom := fun id => hty id ▸ KB.custom id
    types := fun id => hty id ▸ KB.types id }

end Scn
