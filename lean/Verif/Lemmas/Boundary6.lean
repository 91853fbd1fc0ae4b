import Verif.Lemmas.Boundary5
import Verif.Lemmas.Simulate
import Verif.Model.BufScan
/-
Every destination that reads whole characters, and the driver: a scan stays between the characters of its source.
-/
namespace Scn
open Spec

/-- Destinations that read whole characters: all but a `char`, and a `wchar_t` read from UTF-16. Floating-point destinations come with
    conversions that read the longest numeral there is. -/
def Dest.ByCharacter (e : Enc) : Dest → Prop
  | .int _ ty => ty.category = some .integer ∨ ty.category = some .unsignedInteger
  | .char => False
  | .wchar => e ≠ .utf16
  | .float ty cv _ => (ty = .float ∨ ty = .double ∨ ty = .ldouble) ∧ ∃ round, ConvOk cv round
  | _ => True

theorem byCharacter_type {e : Enc} {d : Dest} (h : d.ByCharacter e) : d.argTy ≠ .custom ∧ d.argTy.category ≠ none := by
  cases d with
  | int T ty =>
    have h' : ty.category = some .integer ∨ ty.category = some .unsignedInteger := h
    refine ⟨?_, ?_⟩
    · rintro hc
      have hc' : ty = .custom := hc
      subst hc'
      rcases h' with h | h <;> simp [ArgTy.category] at h
    · show ty.category ≠ none
      rcases h' with h | h <;> rw [h] <;> simp
  | float ty cv seg =>
    have h' : ty = .float ∨ ty = .double ∨ ty = .ldouble := h.1
    show ty ≠ _ ∧ ty.category ≠ none
    rcases h' with rfl | rfl | rfl <;> simp [ArgTy.category]
  | string dst => cases dst <;> simp [Dest.argTy, ArgTy.category]
  | view dst stored => cases dst <;> simp [Dest.argTy, ArgTy.category]
  | _ => simp [Dest.argTy, ArgTy.category]

/-- A locale whose separator and decimal point are single units, and whose names of truth values are well-formed. -/
structure PlainLocale (e : Enc) (loc : LocaleData) : Prop where
  thsep : Single e loc.thsep
  point : Single e loc.point
  truename : ∃ n, (∀ c ∈ n, IsScalar c) ∧ loc.truename = encodes e n
  falsename : ∃ n, (∀ c ∈ n, IsScalar c) ∧ loc.falsename = encodes e n

theorem defaultReader_keeps (e wide : Enc) {d : Dest} (hd : d.ByCharacter e) : Keeps e (d.defaultReader e wide).read := by
  cases d with
  | int T ty =>
    exact Keeps.map (rd := Reader.mk true fun l s => readIntDefault (srcOf e l) T s) _
      (readInt_keeps (sp := ⟨10, false, none⟩) (Or.inr (by decide)) (by simp))
  | bool => exact Keeps.map (rd := Reader.mk true fun _ s => readBool true true readBoolText s) _ (readBool_keeps (readBoolText_keeps e))
  | char => exact absurd hd id
  | wchar => exact Keeps.map (rd := Reader.mk false fun _ s => readWcharDefault e wide s) _ (wcharDefault_keeps hd)
  | codePoint => exact (codePoint_keeps e).map _
  | string dst =>
    exact Keeps.map (rd := Reader.mk true fun l s => readWord e dst l s) _
      (stringReader_keeps (sp := {}) (handleNonascii_plain rfl) .word)
  | pointer => exact Keeps.map (rd := pointerReader e) _ (readInt_keeps (sp := ⟨16, false, none⟩) (Or.inr (by decide)) (by simp))
  | view dst stored => exact (viewReader_keeps (handleNonascii_plain rfl) .word).map _
  | float ty cv seg =>
    exact Keeps.map (rd := Reader.mk true fun l s => readFloatAs cv e (srcOf e l) seg .classic .none s) _
      (readFloatAs_keeps (k := srcOf e) (convOk_reads hd.2.choose_spec) (fun h => absurd rfl h) (single_ascii e (by decide)) .none)

theorem getBase_bound {sp : Specs} {b : Nat} (h : sp.getBase = some b) : b = 0 ∨ (2 ≤ b ∧ b ≤ 36) := by
  unfold Specs.getBase at h
  split at h <;> cases h <;> simp

theorem intSpecs_keeps {e : Enc} {loc : LocaleData} (hloc : PlainLocale e loc) (T : IntTy) (sp : Specs) : Keeps e (intSpecsReader e loc T sp).read := by
  intro l cps hs v r h
  simp only [intSpecsReader] at h
  split at h
  · cases h
  · rename_i b hb
    refine readInt_keeps (T := T) (getBase_bound hb) (fun c hc => ?_) l cps hs v r h
    dsimp only at hc
    split at hc
    · cases hc; exact hloc.thsep
    · cases hc

theorem specsReader_keeps {e wide : Enc} {loc : LocaleData} (hloc : PlainLocale e loc) {old : Nat} {sp : Specs} (hset : handleNonascii e sp ≠ .ub)
    {d : Dest} (hd : d.ByCharacter e) : Keeps e (d.specsReader e wide loc old sp).read := by
  cases d with
  | int T ty => exact (intSpecs_keeps hloc T sp).map _
  | bool =>
    refine Keeps.map (rd := boolReader loc sp) _ (readBool_keeps fun cps hs b r h => ?_)
    split at h
    · exact readBoolNames_keeps hloc.truename hloc.falsename cps hs b r h
    · exact readBoolText_keeps e cps hs b r h
  | char => exact absurd hd id
  | wchar =>
    refine Keeps.map (rd := wcharReader e wide loc sp old) _ fun l cps hs v r h => ?_
    simp only [wcharReader] at h
    split at h
    · exact wcharDefault_keeps hd l cps hs v r h
    · exact (intSpecs_keeps hloc _ sp).map (fun _ => old) l cps hs v r h
  | codePoint => exact (codePoint_keeps e).map _
  | string dst =>
    simp only [Dest.specsReader]
    split
    · exact (stringReader_keeps hset _).map _
    · rename_i hk
      exact (regexReader_keeps hk).map _
  | pointer => exact Keeps.map (rd := pointerReader e) _ (readInt_keeps (sp := ⟨16, false, none⟩) (Or.inr (by decide)) (by simp))
  | view dst stored =>
    simp only [Dest.specsReader]
    split
    · exact (viewReader_keeps hset _).map _
    · rename_i hk
      exact (regexViewReader_keeps hk).map _
  | float ty cv seg =>
    refine Keeps.map (rd := floatReader e loc cv seg sp) _ (readFloatAs_keeps (k := srcOf e) (convOk_reads hd.2.choose_spec) ?_ ?_ sp.type)
    · intro h
      unfold floatLocOf at h ⊢
      cases hl : sp.localized with
      | true => exact hloc.thsep
      | false => rw [hl] at h; exact absurd rfl h
    · unfold floatLocOf
      split
      · exact hloc.point
      · exact single_ascii e (by decide)

theorem readSpecs_keeps {cfg : RegexCfg} {e wide : Enc} {loc : LocaleData} (hloc : PlainLocale e loc) {old : Nat} {d : Dest} (hd : d.ByCharacter e)
    {lay : List Nat → Layout} (hlay : GoodLayouts e lay) {f : List Nat} (hf : ∀ c ∈ f, IsScalar c) {pos p : List Nat} (hpos : pos <:+ encodes e f)
    {ty : ArgTy} {setter : Setter} (hp : parseSpecs cfg e ty ⟨{}, false⟩ pos = some (setter, p)) (he : setter.err = false)
    {cps : List Nat} (hs : ∀ c ∈ cps, IsScalar c) {v : Val} {r : List Nat}
    (h : d.readSpecs e wide loc old setter.specs lay (encodes e cps) = .ok (v, r)) : Between e cps r := by
  unfold Dest.readSpecs at h
  split at h
  · cases h
  · cases h
  · obtain ⟨F, hF⟩ := (parseSpecs_fillOk hf hpos hp he).describes
    exact argRead_keeps hF (specsReader_keeps hloc (parseSpecs_accepted hp he).ok.set hd) hlay hs h

/-- Segments taken for the whole source end between two characters. -/
def GoodWindows (e : Enc) (win : List Nat → Option Nat) : Prop :=
  ∀ cps k, (∀ c ∈ cps, IsScalar c) → win (encodes e cps) = some k → ∃ a b, cps = a ++ b ∧ (encodes e a).length = k

theorem encodes_split (e : Enc) (a b : List Nat) : encodes e (a ++ b) = encodes e a ++ encodes e b := by
  unfold encodes; rw [List.flatMap_append]

theorem windowRead_keeps {V : Type} {e : Enc} {rd : Reader V} (h : Keeps e rd.read) {lay : List Nat → Layout} (hlay : GoodLayouts e lay)
    {win : List Nat → Option Nat} (hwin : GoodWindows e win) {cps : List Nat} (hs : ∀ c ∈ cps, IsScalar c) {v : V} {r : List Nat}
    (hr : windowRead e rd lay win (encodes e cps) = .ok (v, r)) : Between e cps r := by
  unfold windowRead at hr
  split at hr
  · exact defaultRead_keeps h hlay hs hr
  · rename_i k hk
    obtain ⟨a, b, rfl, hlen⟩ := hwin cps k hs hk
    have ht : (encodes e (a ++ b)).take k = encodes e a := by rw [encodes_split, ← hlen, List.take_left]
    rw [ht] at hr
    cases hd : defaultRead e rd (fun _ => .contiguous) (encodes e a) with
    | ub => rw [hd] at hr; cases hr
    | err x => rw [hd] at hr; cases hr
    | ok x =>
      obtain ⟨v', r'⟩ := x
      rw [hd] at hr
      cases hr
      obtain ⟨t, ⟨q, rfl⟩, h2⟩ := defaultRead_keeps h (goodLayouts_contiguous e) (fun c hc => hs c (by simp [hc])) hd
      refine ⟨t ++ b, ⟨q, by simp⟩, ?_⟩
      dsimp only
      rw [h2, encodes_split e (q ++ t) b, encodes_split e q t, List.length_append, Nat.add_sub_cancel, List.append_assoc, List.drop_left, encodes_split]

/-! ### The driver -/

variable {V : Type}

/-- The readers of a call stay between characters, for the specifications that are in the format string. -/
structure EnvKeeps (env : Env V) (e : Enc) (cps fmt : List Nat) : Prop where
  enc : env.enc = e
  skip : ∀ s r, Between e cps s → env.skip s = some r → Between e cps r
  dflt : ∀ id s v r, Between e cps s → env.readDefault id s = .ok (v, r) → Between e cps r
  specs : ∀ id pos setter p s v r, Between e cps s → pos <:+ fmt → parseSpecs env.cfg env.enc (env.argTy id) ⟨{}, false⟩ pos = some (setter, p) →
    setter.err = false → env.readSpecs id setter.specs s = .ok (v, r) → Between e cps r
  custom : ∀ id, env.argTy id ≠ .custom
  types : ∀ id, (env.argTy id).category ≠ none

/-- A field is read at a place between two characters, and ends at one unless it fails. -/
def VisitKeeps (e : Enc) (cps : List Nat) : Event V → Prop
  | .visit _ src res => Between e cps src ∧ ∀ v r, res = .ok (v, r) → Between e cps r
  | .literal _ _ _ _ => True

/-- What holds of the state of the handler. -/
def Placed (e : Enc) (cps fmt : List Nat) (st : FH V) : Prop :=
  (st.err = none → Between e cps st.src) ∧ st.fmtPos <:+ fmt ∧ ∀ ev ∈ st.events, VisitKeeps e cps ev

theorem setVisited_placed {e : Enc} {cps fmt : List Nat} {c : Nat} {st st' : FH V} {id : Nat} (h : st.setVisited c id = some st')
    (hp : Placed e cps fmt st) : Placed e cps fmt st' := by
  have herr : (st'.err = none → st.err = none) ∧ st'.events = st.events := by
    unfold FH.setVisited at h
    split at h
    · cases h; exact ⟨(fun hn => by cases hn), rfl⟩
    · split at h
      · exact absurd h (by simp)
      · rename_i v _
        dsimp only at h
        split at h
        · cases h; cases v <;> exact ⟨by simp [FH.onError], rfl⟩
        · split at h
          · exact absurd h (by simp)
          · cases h; cases v <;> exact ⟨by simp [FH.onError], rfl⟩
  obtain ⟨h1, h2⟩ := setVisited_src h
  refine ⟨fun hn => ?_, by rw [h2]; exact hp.2.1, by rw [herr.2]; exact hp.2.2⟩
  rw [h1]
  exact hp.1 (herr.1 hn)

theorem Placed.error {e : Enc} {cps fmt : List Nat} {st : FH V} (h : Placed e cps fmt st) (x : Err) : Placed e cps fmt (st.onError x) :=
  ⟨(fun hn => by cases hn), h.2.1, h.2.2⟩

theorem enter_placed {env : Env V} {e : Enc} {cps fmt : List Nat} {st st' : FH V} {id : Nat} (h : st.enter env id = some st')
    (hp : Placed e cps fmt st) : Placed e cps fmt st' := by
  unfold FH.enter at h
  refine setVisited_placed h ?_
  split
  · exact hp.error _
  · exact hp

theorem canVisit_ok {env : Env V} {st : FH V} {id : Nat} (h : st.canVisit env id = true) : st.err = none := by
  unfold FH.canVisit at h
  simp only [Bool.and_eq_true, Option.isNone_iff_eq_none] at h
  exact h.1

theorem onVisit_placed {e : Enc} {cps fmt : List Nat} {st st' : FH V} {id : Nat} {res : Res (V × List Nat)} (hn : st.err = none)
    (hp : Placed e cps fmt st) (hr : Between e cps st.src → ∀ v r, res = .ok (v, r) → Between e cps r) (h : st.onVisit id res = some st') :
    Placed e cps fmt st' ∧ st'.fmtPos = st.fmtPos := by
  have hb := hp.1 hn
  have hev : ∀ ev ∈ st.events ++ [Event.visit id st.src res], VisitKeeps e cps ev := by
    intro ev hev
    rcases List.mem_append.1 hev with h | h
    · exact hp.2.2 ev h
    · rw [List.mem_singleton.1 h]
      exact ⟨hb, hr hb⟩
  unfold FH.onVisit at h
  dsimp only at h
  split at h
  · cases h
  · cases h
    exact ⟨⟨(fun hn => by cases hn), hp.2.1, hev⟩, rfl⟩
  · cases h
    exact ⟨⟨fun _ => hr hb _ _ rfl, hp.2.1, hev⟩, rfl⟩

theorem runHandler_placed {env : Env V} {e : Enc} {cps fmt : List Nat} (hs : ∀ c ∈ cps, IsScalar c) (K : EnvKeeps env e cps fmt) :
    Simulates (runHandler env) (runHandler env) (Placed e cps fmt) (· <:+ fmt) where
  down _ _ h ht := ht.trans h
  lit a t a' hq _ h := by
    refine ⟨h, ?_⟩
    have h' : FH.onLiteral env a t = some a' := h
    unfold FH.onLiteral at h'
    split at h'
    · cases h'
    · rename_i src f hl
      have hev : ∀ ev ∈ a.events ++ [Event.literal t a.src src f], VisitKeeps e cps ev := by
        intro ev hev
        rcases List.mem_append.1 hev with h | h
        · exact hq.2.2 ev h
        · rw [List.mem_singleton.1 h]; trivial
      dsimp only at h'
      split at h'
      · cases h'
        exact ⟨fun hn => litLoop_between K.enc K.skip hs _ _ _ _ (hq.1 hn) hl, hq.2.1, hev⟩
      · cases h'
        exact ⟨(fun hn => by cases hn), hq.2.1, hev⟩
  auto _ hq := ⟨rfl, hq⟩
  man _ _ hq := ⟨rfl, hq⟩
  field a id pos a' hq h := by
    refine ⟨h, ?_⟩
    have h' : FH.onField env a id = some a' := h
    unfold FH.onField at h'
    split at h'
    · cases h'
    · rename_i st hst
      have hp := enter_placed hst hq
      split at h'
      · rename_i hv
        exact (onVisit_placed (canVisit_ok hv) hp (fun hb v r hr => K.dflt id st.src v r hb hr) h').1
      · cases h'; exact hp
  specs a id pos a' p hq hpos h := by
    refine ⟨h, ?_⟩
    have h' : FH.onSpecs env a id pos = some (a', p) := h
    unfold FH.onSpecs at h'
    split at h'
    · cases h'
    · rename_i st hst
      have hp := enter_placed hst hq
      rw [if_neg (K.custom id)] at h'
      split at h'
      · cases h'
      · rename_i setter q hps
        split at h'
        · rename_i q'
          split at h'
          · cases h'; exact ⟨hp, hp.2.1⟩
          · rename_i herr
            have hq' : (125 :: q') <:+ fmt := by
              refine List.IsSuffix.trans ?_ hpos
              have := parseSpecs_steps env.cfg env.enc (env.argTy id) ⟨{}, false⟩ pos (Or.inl (K.types id))
              rw [hps] at this
              obtain ⟨_, _, h1, h2⟩ := this
              cases h1
              exact h2
            have hp' : Placed e cps fmt { st with fmtPos := 125 :: q' } := ⟨hp.1, hq', hp.2.2⟩
            dsimp only at h'
            split at h'
            · rename_i hv
              simp only [Option.map_eq_some_iff, Prod.mk.injEq] at h'
              obtain ⟨st2, h2, rfl, rfl⟩ := h'
              obtain ⟨h3, h4⟩ := onVisit_placed (st := { st with fmtPos := 125 :: q' }) (canVisit_ok hv) hp'
                (fun hb v r hr => K.specs id pos setter _ st.src v r hb hpos hps (by simpa using herr) hr) h2
              exact ⟨h3, h3.2.1⟩
            · cases h'; exact ⟨hp', hq'⟩
        · cases h'
          exact ⟨hp.error _, hp.2.1⟩
  err _ hq := ⟨rfl, hq.error _⟩
  has _ := rfl

theorem checkExhausted_placed {e : Enc} {cps fmt : List Nat} {c : Nat} {st st' : FH V} (h : st.checkExhausted c = some st')
    (hp : Placed e cps fmt st) : Placed e cps fmt st' := by
  unfold FH.checkExhausted at h
  dsimp only at h
  generalize (if c ≥ 64 then 2 ^ 64 - 1 else 1 <<< c - 1) = mask at h
  split at h
  · cases h; exact hp.error _
  · split at h
    · cases h; exact hp
    · split at h
      · cases h
      · split at h
        · cases h; exact hp.error _
        · split at h
          · cases h
          · split at h
            · cases h; exact hp.error _
            · cases h; exact hp

/-- A successful scan ends between two characters, and every field that is read begins between two characters, and ends there unless it
    fails. -/
theorem vscan_placed {env : Env V} {e : Enc} {cps fmt : List Nat} (hs : ∀ c ∈ cps, IsScalar c) (K : EnvKeeps env e cps fmt)
    {res : Except Err (List Nat)} {evs : List (Event V)} (h : vscan env fmt (encodes e cps) = some (res, evs)) :
    (∀ rest, res = .ok rest → Between e cps rest) ∧ ∀ ev ∈ evs, VisitKeeps e cps ev := by
  unfold vscan at h
  split at h
  · unfold scanSimple at h
    split at h
    · cases h
    · cases h
      refine ⟨(fun _ h => by cases h), fun ev hev => ?_⟩
      rw [List.mem_singleton.1 hev]
      exact ⟨Between.here e cps, (fun _ _ h => by cases h)⟩
    · rename_i v rest hr
      cases h
      have hb := K.dflt 0 _ v rest (Between.here e cps) hr
      refine ⟨(fun _ h => by cases h; exact hb), fun ev hev => ?_⟩
      rw [List.mem_singleton.1 hev]
      exact ⟨Between.here e cps, fun _ _ h => by cases h; exact hb⟩
  · unfold vscanGeneral at h
    cases hl : parseLoop (runHandler env) (parseFuel env.count fmt) (FH.init env.count fmt (encodes e cps)) fmt with
    | none => rw [hl] at h; cases h
    | some st =>
      rw [hl] at h
      simp only [Option.map_eq_some_iff, Prod.mk.injEq] at h
      obtain ⟨st2, h2, h3, h4⟩ := h
      have hp := checkExhausted_placed h2 (parseLoop_simulate (runHandler_placed hs K) _ _ _ _
        ⟨fun _ => Between.here e cps, List.suffix_refl _, by simp [FH.init]⟩ (List.suffix_refl _) hl).2
      subst h4
      refine ⟨fun rest hrest => ?_, hp.2.2⟩
      rw [hrest] at h3
      split at h3
      · cases h3
      · rename_i hn
        cases h3
        exact hp.1 hn

theorem bufEnv_keeps {e wide : Enc} {cfg : RegexCfg} {loc : LocaleData} (hloc : PlainLocale e loc) (old : Nat) {lay : List Nat → Layout}
    (hlay : GoodLayouts e lay) {win : List Nat → Option Nat} (hwin : GoodWindows e win) {ds : List Dest} (hd : ∀ d ∈ ds, d.ByCharacter e)
    {cps : List Nat} (hs : ∀ c ∈ cps, IsScalar c) {f : List Nat} (hf : ∀ c ∈ f, IsScalar c) :
    EnvKeeps (bufEnv e wide cfg loc old lay win ds) e cps (encodes e f) where
  enc := rfl
  skip s r := by
    rintro ⟨t, ht, rfl⟩ h
    have hst : ∀ c ∈ t, IsScalar c := fun c hc => hs c (ht.subset hc)
    have h' : readWhileSpace e (lay (encodes e t)) (encodes e t) = some r := h
    rw [readWhileSpace_encodes e _ t hst (hlay t hst)] at h'
    cases h'
    exact ⟨_, (List.dropWhile_suffix _).trans ht, rfl⟩
  dflt id s v r := by
    rintro ⟨t, ht, rfl⟩ h
    simp only [bufEnv] at h
    split at h
    · cases h
    · rename_i d hdd
      exact (windowRead_keeps (defaultReader_keeps e wide (hd d (List.mem_of_getElem? hdd))) hlay hwin (fun c hc => hs c (ht.subset hc)) h).trans ht
  specs id pos setter p s v r := by
    rintro ⟨t, ht, rfl⟩ hpos hp he h
    simp only [bufEnv] at h
    split at h
    · cases h
    · rename_i d hdd
      exact (readSpecs_keeps hloc (hd d (List.mem_of_getElem? hdd)) hlay hf hpos hp he (fun c hc => hs c (ht.subset hc)) h).trans ht
  custom id := by
    unfold Env.argTy
    split
    · rename_i hid
      have hid' : id < ds.length := hid
      show ((ds[id]?).map Dest.argTy).getD .none ≠ _
      rw [List.getElem?_eq_getElem hid']
      exact (byCharacter_type (hd _ (List.getElem_mem hid'))).1
    · simp
  types id := by
    unfold Env.argTy
    split
    · rename_i hid
      have hid' : id < ds.length := hid
      show (((ds[id]?).map Dest.argTy).getD .none).category ≠ _
      rw [List.getElem?_eq_getElem hid']
      exact (byCharacter_type (hd _ (List.getElem_mem hid'))).2
    · simp [ArgTy.category]

end Scn
