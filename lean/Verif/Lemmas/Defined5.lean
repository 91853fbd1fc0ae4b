import Verif.Lemmas.Defined4
import Verif.Lemmas.Ends
/-
The readers of all built-in destinations, and the driver over them, are well-defined.
-/
namespace Scn
open Spec

/-- Destinations whose reader is well-defined on every source of encoding `e`: all of the model but
    `char32_t`, and `char` and `wchar_t` only from their own encoding (`C38_violated_at_end`,
    `C38_violated_truncated`). -/
def Dest.Tame (e : Enc) : Dest → Prop
  | .int _ ty => ty.category = some .integer ∨ ty.category = some .unsignedInteger
  | .bool => True
  | .char => e = .utf8
  | .wchar => e ≠ .utf8
  | .codePoint => False
  | .string dst => EncPair e dst
  | .pointer => True
  | .view _ _ => True
  | .float ty _ _ => ty = .float ∨ ty = .double ∨ ty = .ldouble

theorem readCodeUnit_sound (s : List Nat) : Sound (readCodeUnit s) s := by
  cases s with
  | nil => exact Sound.err _ _
  | cons c cs => exact Sound.ok _ (List.suffix_cons _ _)

theorem mapVal_sound {V W : Type} {e : Enc} {rd : Reader V} (f : V → W) (h : ∀ l s, UnitsOk e s → Sound (rd.read l s) s) :
    ∀ l s, UnitsOk e s → Sound ((rd.mapVal f).read l s) s := fun l s hu => (h l s hu).map f

theorem defaultReader_sound (e wide : Enc) {d : Dest} (hd : d.Tame e) (l : Layout) (s : List Nat) (hu : UnitsOk e s) :
    Sound ((d.defaultReader e wide).read l s) s := by
  cases d with
  | int T ty => exact (readInt_sound _ _ _ (Or.inr (by decide)) s).map _
  | bool => exact (readBool_sound _ _ _ (fun _ _ _ h => readBoolText_suffix h) s).map _
  | char =>
    have he : e = .utf8 := hd
    refine Sound.map (r := readCharDefault e s) ?_ _
    unfold readCharDefault
    rw [if_pos he]
    exact readCodeUnit_sound s
  | wchar =>
    have he : e ≠ .utf8 := hd
    refine Sound.map (r := readWcharDefault e wide s) ?_ _
    unfold readWcharDefault
    rw [if_neg he]
    exact readCodeUnit_sound s
  | codePoint => exact absurd hd id
  | string dst => exact (readWord_sound hd l hu).map _
  | pointer => exact (readInt_sound _ _ _ (Or.inr (by decide)) s).map _
  | view dst stored =>
    exact Sound.map ((stringEnd_ok (by simp [handleNonascii]) .word l s hu).bind fun it hit => readStringView_sound e dst stored hit) _
  | float ty cv seg => exact (readFloatAs_sound cv e _ seg _ (ty := .none) (by decide) s hu).map _

theorem defaultRead_sound {V : Type} {e : Enc} (rd : Reader V) (hrd : ∀ l s, UnitsOk e s → Sound (rd.read l s) s)
    (lay : List Nat → Layout) (s : List Nat) (hu : UnitsOk e s) : Sound (defaultRead e rd lay s) s := by
  unfold defaultRead
  split
  · exact Sound.err _ _
  · split
    · rcases skipSpace_cases e (lay s) false s hu with ⟨x, hx⟩ | ⟨p, hp, hps⟩
      · rw [hx]; exact Sound.err _ _
      · rw [hp]
        exact (hrd (lay p) p (hu.suffix hps)).trans hps
    · exact hrd _ s hu

theorem getBase_of_int {sp : Specs} (h : sp.type.ord ≤ Pres.intHex.ord) :
    ∃ b, sp.getBase = some b ∧ (b = 0 ∨ (2 ≤ b ∧ b ≤ 36)) := by
  unfold Specs.getBase
  cases ht : sp.type <;> rw [ht] at h <;> first
    | exact ⟨_, rfl, by decide⟩
    | exact absurd h (by decide)

theorem checkInt_ord {sp : Specs} (h : checkInt sp = true) : sp.type.ord ≤ Pres.intHex.ord := by
  unfold checkInt at h
  split at h
  · cases h
  · omega

theorem checkChar_ord {sp : Specs} (h : checkChar sp = true) : sp.type.ord ≤ Pres.intHex.ord := by
  unfold checkChar at h
  simp only [Bool.not_eq_true', Bool.or_eq_false_iff, decide_eq_false_iff_not] at h
  omega

theorem intSpecsReader_sound (e : Enc) (loc : LocaleData) (T : IntTy) {sp : Specs} (h : sp.type.ord ≤ Pres.intHex.ord)
    (l : Layout) (s : List Nat) : Sound ((intSpecsReader e loc T sp).read l s) s := by
  obtain ⟨b, hb, hb2⟩ := getBase_of_int h
  show Sound (match sp.getBase with | none => .ub | some b => _) s
  rw [hb]
  exact readInt_sound _ _ _ hb2 s

theorem runTypeCheck_total {e : Enc} {d : Dest} (hd : d.Tame e) (sp : Specs) : ∃ b, runTypeCheck d.argTy sp = some b := by
  cases d with
  | int T ty =>
    rcases hd with h | h <;> cases ty <;> first
      | exact ⟨_, rfl⟩
      | exact absurd h (by decide)
  | string dst => cases dst <;> exact ⟨_, rfl⟩
  | view dst stored => cases dst <;> exact ⟨_, rfl⟩
  | float ty cv seg => rcases hd with rfl | rfl | rfl <;> exact ⟨_, rfl⟩
  | _ => exact ⟨_, rfl⟩

theorem runTypeCheck_int {T : IntTy} {ty : ArgTy} {e : Enc} (hd : (Dest.int T ty).Tame e) (sp : Specs) :
    runTypeCheck (Dest.int T ty).argTy sp = some (checkInt sp) := by
  rcases hd with h | h <;> cases ty <;> first
    | rfl
    | exact absurd h (by decide)

theorem charSpecs_sound {e : Enc} {loc : LocaleData} {T : IntTy} {sp : Specs} {old : Nat} (l : Layout) (s : List Nat)
    (h : sp.type.ord ≤ Pres.intHex.ord) {r : Res (Nat × List Nat)} (hr : Sound r s) :
    Sound (if sp.type = .none ∨ sp.type = .character then r
      else ((intSpecsReader e loc T sp).read l s).map fun x => (old, x.2)) s := by
  split
  · exact hr
  · exact (intSpecsReader_sound e loc T h l s).map fun _ => old

theorem checkFloat_options {sp : Specs} (h : checkFloat sp = true) : floatOptions sp.type ≠ none := by
  unfold checkFloat at h
  cases ht : sp.type <;> rw [ht] at h <;> first
    | (exact absurd h (by decide))
    | (intro hn; cases hn)

/-- The reader chosen for accepted specifications is well-defined. -/
theorem specsReader_sound (e wide : Enc) (loc : LocaleData) (old : Nat) {d : Dest} (hd : d.Tame e) {sp : Specs} (hsp : SpecsOk e sp)
    (hck : runTypeCheck d.argTy sp = some true) :
    ∀ l s, UnitsOk e s → Sound ((d.specsReader e wide loc old sp).read l s) s := by
  cases d with
  | int T ty =>
    rw [runTypeCheck_int hd] at hck
    exact fun l s _ => (intSpecsReader_sound e loc T (checkInt_ord (Option.some.inj hck)) l s).map _
  | bool =>
    refine fun l s _ => Sound.map (readBool_sound _ _ _ ?_ s) _
    intro s b p h
    split at h
    · exact readBoolNames_suffix h
    · exact readBoolText_suffix h
  | char =>
    have he : e = .utf8 := hd
    refine fun l s _ => Sound.map (charSpecs_sound l s (checkChar_ord (Option.some.inj hck)) ?_) _
    unfold readCharDefault
    rw [if_pos he]
    exact readCodeUnit_sound s
  | wchar =>
    have he : e ≠ .utf8 := hd
    refine fun l s _ => Sound.map (charSpecs_sound l s (checkChar_ord (Option.some.inj hck)) ?_) _
    unfold readWcharDefault
    rw [if_neg he]
    exact readCodeUnit_sound s
  | codePoint => exact absurd hd id
  | pointer => exact fun l s _ => (readInt_sound _ _ _ (Or.inr (by decide)) s).map _
  | string dst =>
    intro l s hu
    cases hk : strKind sp with
    | some k =>
      simp only [Dest.specsReader, hk]
      refine Sound.map ?_ _
      cases k with
      | word => exact readWord_sound hd l hu
      | customWord => exact readCustomWord_sound hd sp s
      | character => exact readCharacters_sound hd _ s
      | characterSet => exact readCharset_sound hd hsp.set s
    | none =>
      simp only [Dest.specsReader, hk]
      exact Sound.map ((regexStringEnd_ok e loc hk l s).bind fun it hit => readString_sound hd hit) _
  | view dst stored =>
    intro l s hu
    cases hk : strKind sp with
    | some k =>
      simp only [Dest.specsReader, hk]
      exact Sound.map ((stringEnd_ok hsp.set k l s hu).bind fun it hit => readStringView_sound e dst stored hit) _
    | none =>
      simp only [Dest.specsReader, hk]
      exact Sound.map ((regexStringEnd_ok e loc hk l s).bind fun it hit => readStringView_sound e dst stored hit) _
  | float ty cv seg =>
    have hc : checkFloat sp = true := by rcases hd with rfl | rfl | rfl <;> exact Option.some.inj hck
    exact fun l s hu => (readFloatAs_sound cv e _ seg _ (checkFloat_options hc) s hu).map _

/-- A field with accepted specifications, on any source in any presentation. -/
theorem readSpecs_sound (e wide : Enc) (loc : LocaleData) (old : Nat) {d : Dest} (hd : d.Tame e) {sp : Specs} (hsp : SpecsOk e sp)
    (lay : List Nat → Layout) (s : List Nat) (hu : UnitsOk e s) :
    Sound (d.readSpecs e wide loc old sp lay s) s := by
  unfold Dest.readSpecs
  obtain ⟨b, hb⟩ := runTypeCheck_total hd sp
  rw [hb]
  cases b with
  | false => exact Sound.err _ _
  | true => exact argRead_sound hsp.fill _ (specsReader_sound e wide loc old hd hsp hb) lay s hu

theorem tame_category {e : Enc} {d : Dest} (hd : d.Tame e) : d.argTy.category ≠ none ∧ d.argTy ≠ .custom := by
  cases d with
  | int T ty =>
    show ty.category ≠ none ∧ ty ≠ .custom
    rcases hd with h | h <;> exact ⟨by rw [h]; simp, fun hc => by rw [hc] at h; exact absurd h (by decide)⟩
  | string dst => cases dst <;> exact ⟨by decide, by decide⟩
  | view dst stored => cases dst <;> exact ⟨by simp [Dest.argTy, ArgTy.category], by simp [Dest.argTy]⟩
  | float ty cv seg => rcases hd with rfl | rfl | rfl <;> exact ⟨by simp [Dest.argTy, ArgTy.category], by simp [Dest.argTy]⟩
  | _ => exact ⟨by decide, by decide⟩

theorem stdEnv_ok (e wide : Enc) (cfg : RegexCfg) (loc : LocaleData) (old : Nat) {ds : List Dest} (hds : ∀ d ∈ ds, d.Tame e)
    (fmt : List Nat) : EnvOk (stdEnv e wide cfg loc old ds) (UnitsOk e) fmt where
  down s t hs ht := hs.suffix ht
  skip s hs := readWhileSpace_total e s hs
  dflt id s hid hs := by
    have hid' : id < ds.length := hid
    show Sound (match ds[id]? with | none => .ub | some d => _) s
    rw [List.getElem?_eq_getElem hid']
    exact defaultRead_sound _ (defaultReader_sound e wide (hds _ (List.getElem_mem hid'))) _ s hs
  specs id pos setter p s hid hpos hps he hs := by
    have hid' : id < ds.length := hid
    show Sound (match ds[id]? with | none => .ub | some d => _) s
    rw [List.getElem?_eq_getElem hid']
    exact readSpecs_sound e wide loc old (hds _ (List.getElem_mem hid')) (parseSpecs_accepted hps he).ok _ s hs
  custom id pos s hc hs := by
    exfalso
    unfold Env.argTy at hc
    split at hc
    · rename_i hid
      have hid' : id < ds.length := hid
      have hc' : ((ds[id]?).map Dest.argTy).getD .none = .custom := hc
      rw [List.getElem?_eq_getElem hid'] at hc'
      exact (tame_category (hds _ (List.getElem_mem hid'))).2 hc'
    · cases hc
  types id hid := Or.inl <| by
    have hid' : id < ds.length := hid
    show (((ds[id]?).map Dest.argTy).getD .none).category ≠ none
    rw [List.getElem?_eq_getElem hid']
    exact (tame_category (hds _ (List.getElem_mem hid'))).1

end Scn
