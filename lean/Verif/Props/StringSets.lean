import Verif.Props.Strings
import Verif.Lemmas.WrittenSet
/-
Properties of fields with sets of characters in scan calls: C105.
-/
namespace Scn
open Spec

/-- The value of a field with a set of characters, and what it leaves of the text it may look at. -/
def Spec.setTaken (e : Enc) (t : SetText) (cps : List Nat) : Res (Val × List Nat) :=
  if cps.takeWhile t.denotes = [] then .err .invalidScannedValue
  else .ok (.string (encodes e (cps.takeWhile t.denotes)), cps.dropWhile t.denotes)

/-- C105, sets of characters: in any scan call, a field `{:*<10.20[...]}` of a string, or of a string view into the source, with any fill,
    alignment, width and precision takes, after the fill characters before it, the longest prefix of characters the set denotes in as
    many columns as the precision allows, whitespace included, then the fill characters after it, and fails if there is no such
    character or the width is not reached. Partial: no range in the set crosses the end of ASCII (`C30_crossing_range_violated`). -/
theorem C105_set_specs_partial {e wide : Enc} {cfg : RegexCfg} {loc : LocaleData} {old : Nat} {ds : List Dest} {id : Nat} {d : Dest}
    (hd : ds[id]? = some d) (hde : d = .string e ∨ d = .view e false) (w : Written) (hw : w.Readable e d.argTy []) (hlet : w.letter = none)
    (hloc : w.localized = false) (t : SetText) (ht : t.Ok) (hx : t.NoCrossing) :
    ∃ read, (∀ gap, FieldMeans (stdEnv e wide cfg loc old ds) ⟨gap, id, some (w.render e ++ t.text e), read⟩) ∧
      ∀ cps, (∀ c ∈ cps, IsScalar c) →
        read (encodes e cps) = (w.field.read false (setTaken e t) cps).map fun r => (r.1, encodes e r.2) := by
  have hty := std_argTy (e := e) (wide := wide) (cfg := cfg) (loc := loc) (old := old) hd
  obtain ⟨⟨sp, err⟩, _, _, h3, h4⟩ := parseSpecs_written_set cfg e d.argTy w hw hlet hloc t ht []
  dsimp only at h3 h4
  refine ⟨(stdEnv e wide cfg loc old ds).readSpecs id sp, fun gap => ?_, fun cps h => ?_⟩
  · unfold FieldMeans
    dsimp only
    rw [if_neg (by rw [hty]; rcases hde with rfl | rfl <;> cases e <;> simp [Dest.argTy])]
    refine ⟨sp, fun r => ?_, rfl⟩
    obtain ⟨⟨sp', err'⟩, g1, g2, g3, g4⟩ := parseSpecs_written_set cfg e d.argTy w hw hlet hloc t ht r
    dsimp only at g2 g3 g4
    rw [hty]
    show parseSpecs cfg e _ _ _ = _
    rw [List.append_assoc, g1, setSpecs_unique h3 g3 (by rw [h4, g4]), g2]
  · have hF : Describes e sp w.field := by
      have hD := describes_written hw
      have g1 : sp.width = (w.specs e).width := by have := congrArg Specs.width h4; exact this
      have g2 : sp.precision = (w.specs e).precision := by have := congrArg Specs.precision h4; exact this
      have g3 : sp.align = (w.specs e).align := by have := congrArg Specs.align h4; exact this
      have g4 : sp.fill = (w.specs e).fill := by have := congrArg Specs.fill h4; exact this
      exact ⟨by rw [g1]; exact hD.width, by rw [g2]; exact hD.precision, by rw [g3]; exact hD.side, by rw [g4]; exact hD.fill, hD.scalar⟩
    have hk : strKind sp = some .characterSet := by unfold strKind; rw [h3.type]
    have hcheck : checkString sp = true := by unfold checkString; rw [h3.type]; rfl
    have hden : (fun x => codeListed t x != t.inverted) = t.denotes := by
      funext x; rw [codeListed_eq t hx]; rfl
    have hread : (stdEnv e wide cfg loc old ds).readSpecs id sp (encodes e cps) =
        argRead e sp ((stringReader e e sp .characterSet).mapVal .string) (fun _ => .contiguous) (encodes e cps) := by
      simp only [stdEnv]
      rw [hd]
      rcases hde with rfl | rfl
      · have ht : runTypeCheck (Dest.string e).argTy sp = some true := by
          cases e <;> exact congrArg some hcheck
        show (match runTypeCheck (Dest.string e).argTy sp with | none => _ | some false => _ | some true => _) = _
        rw [ht]
        dsimp only [Dest.specsReader]
        rw [hk]
      · have ht : runTypeCheck (Dest.view e false).argTy sp = some true := by
          cases e <;> exact congrArg some hcheck
        show (match runTypeCheck (Dest.view e false).argTy sp with | none => _ | some false => _ | some true => _) = _
        rw [ht]
        dsimp only [Dest.specsReader]
        rw [hk]
        dsimp only
        rw [viewReader_same e _ _]
    have hwhole := stringReader_whole e sp w.field hF .characterSet t.denotes (fun _ => ⟨t, ht, h3, hden⟩) (fun h => by cases h)
    have hv : Whole e IsScalar ((stringReader e e sp .characterSet).mapVal Val.string).read (setTaken e t) := by
      refine ⟨fun l cps h hl => ?_, hwhole.scalar, fun cps v r hr => ?_⟩
      · show Res.map _ ((stringReader e e sp .characterSet).read l (encodes e cps)) = _
        rw [hwhole.read l cps h hl]
        unfold setTaken
        simp only [kindStops, Bool.not_not, true_and]
        by_cases hn : cps.takeWhile t.denotes = []
        · rw [if_pos hn, if_pos hn]; rfl
        · rw [if_neg hn, if_neg hn]; rfl
      · unfold setTaken at hr
        split at hr
        · cases hr
        · injection hr with hr
          injection hr with _ hr
          rw [← hr]
          exact List.dropWhile_suffix _
    rw [hread, argRead_spec e _ _ hF _ _ hv _ cps h (fun t _ => by cases e <;> trivial)]
    rfl

/-- `{:_<6.8` before a set. -/
def demoBefore : Written := { align := some (some 95, 60), width := some 6, precision := some 8 }

/-- Hypotheses met: `{:_<6.8[a-c ]}` takes "a b" out of "a b___!" and leaves "!", and of "a b_d" it is an error, as six columns are not reached. -/
example : demoBefore.Readable .utf8 (Dest.string .utf8).argTy [] ∧
    (SetText.mk false false [.range 97 99, .one 32]).Ok ∧ (SetText.mk false false [.range 97 99, .one 32]).NoCrossing ∧
    (demoBefore.field.read false (setTaken .utf8 (SetText.mk false false [.range 97 99, .one 32])) [97, 32, 98, 95, 95, 95, 33]).map
      (fun r => (r.1, encodes .utf8 r.2)) = .ok (.string [97, 32, 98], [33]) ∧
    (demoBefore.field.read false (setTaken .utf8 (SetText.mk false false [.range 97 99, .one 32])) [97, 32, 98, 95, 100]).map
      (fun r => (r.1, encodes .utf8 r.2)) = .err .lengthTooShort := by
  refine ⟨⟨?_, by simp [demoBefore], by simp [demoBefore], by simp [demoBefore], by simp [demoBefore], fun h => by cases h⟩,
    ⟨?_, ?_, by decide, by decide, by decide⟩, ?_, ?_, ?_⟩
  · intro f a h
    simp only [demoBefore, Option.some.injEq, Prod.mk.injEq] at h
    obtain ⟨rfl, rfl⟩ := h
    refine ⟨by simp, fun cp hcp => ?_⟩
    simp only [Option.some.injEq] at hcp
    subst hcp
    exact ⟨ascii_scalar (by decide), by decide, by decide, fun _ => by decide⟩
  · intro i hi
    simp at hi
    rcases hi with rfl | rfl <;> (unfold SetItem.Ok; decide)
  · simp [Separated]
  · intro i hi
    simp at hi
    rcases hi with rfl | rfl <;> simp
  · decide +kernel
  · decide +kernel

end Scn
