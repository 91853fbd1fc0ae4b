import Verif.Lemmas.FloatLoc
import Verif.Props.Fields2
import Verif.Props.Float2
/-
Property C36 for floating-point numbers with the separator and the decimal point of a locale.
-/
namespace Scn
open Spec

theorem readFloatAs_seg {V : Type} (cv : FloatConv V) (e : Enc) (k : Src) (seg seg' : Bool) {loc : FloatLoc} (hn : ¬ (loc.sep = 0 ∧ loc.point = 46)) (ty : Pres) (s : List Nat) :
    readFloatAs cv e k seg loc ty s = readFloatAs cv e k seg' loc ty s := by
  have : ∀ b b' t, handleSeparators loc b t = handleSeparators loc b' t := by
    intro b b' t
    unfold handleSeparators
    rw [if_neg hn, if_neg hn]
  unfold readFloatAs readFloat
  simp only [this _ (!k.contiguous && seg')]

/-- The readers of floating-point numbers read whole characters, with a locale and without. -/
theorem floatReader_loc_whole {cv : FloatConv Nat} {round : List Nat → Rounded Nat} (hcv : ConvOk cv round) (e : Enc) (loc : LocaleData) (seg : Bool)
    (sp : Specs) (hsep : loc.thsep ≠ 0 → Single e loc.thsep) (hp : Single e loc.point) (c : Bool) :
    Whole e IsScalar (fun _ s => (floatReader e loc cv seg sp).read (if c then .contiguous else .segmented 0) s)
      (readFloatAs cv .utf32 ⟨decide (e = .utf8), c⟩ false (floatLocOf loc sp.localized) sp.type) where
  read l cps h _ := by
    show readFloatAs cv e _ seg (floatLocOf loc sp.localized) sp.type _ = _
    have hk : srcOf e (if c then .contiguous else .segmented 0) = ⟨decide (e = .utf8), c⟩ := by cases c <;> rfl
    rw [hk]
    by_cases hn : (floatLocOf loc sp.localized).sep = 0 ∧ (floatLocOf loc sp.localized).point = 46
    · have : floatLocOf loc sp.localized = .classic := by
        cases hx : floatLocOf loc sp.localized
        rw [hx] at hn
        obtain ⟨rfl, rfl⟩ := hn
        rfl
      rw [this]
      exact readFloatAs_encodes hcv e _ ⟨decide (e = .utf8), c⟩ rfl seg false sp.type cps h
    · rw [readFloatAs_seg cv e _ seg false hn]
      have hloc : sp.localized = true := by
        cases hl : sp.localized with
        | true => rfl
        | false => rw [hl] at hn; exact absurd ⟨rfl, rfl⟩ hn
      refine readFloatAs_encodes_loc (convOk_reads hcv) e _ false hn ?_ ?_ sp.type h
      · rw [hloc]; exact hsep
      · rw [hloc]; exact hp
  scalar _ h := h
  suffix cps v r h := by
    unfold readFloatAs at h
    split at h
    · cases h
    · unfold readFloat at h
      split at h
      · cases h
      · rename_i s _ _
        cases hb : floatBody ⟨decide (e = .utf8), c⟩ (floatLocOf loc sp.localized) ‹_› s with
        | ub => rw [hb] at h; cases h
        | err x => rw [hb] at h; cases h
        | ok b =>
          rw [hb, Res.bind_ok] at h
          dsimp only at h
          split at h
          · cases h
          · cases h
          · cases h; exact List.drop_suffix _ _

/-- C36 for floating-point numbers, with the flag `L` too: the value of a field is read from its view as from a text of its own, with the
    separator and the decimal point of the locale (C73). These are characters of one unit (that of a locale is a `char` or `wchar_t`). -/
theorem C36_localized_float_partial {cv : FloatConv Nat} {round : List Nat → Rounded Nat} (hcv : ConvOk cv round) (e : Enc) (loc : LocaleData) (seg : Bool)
    (sp : Specs) (hsep : loc.thsep ≠ 0 → Single e loc.thsep) (hp : Single e loc.point) (F : PaddedField) (hF : Describes e sp F)
    (lay : List Nat → Layout) (c : Bool) (hc : ∀ s, lay s = .contiguous ↔ c = true) (cps : List Nat)
    (h : ∀ cp ∈ cps, IsScalar cp) (hlay : ∀ t, t <:+ cps → GoodLayout e (lay (encodes e t)) t) :
    argRead e sp (floatReader e loc cv seg sp) lay (encodes e cps) =
      (F.read true (readFloatAs cv .utf32 ⟨decide (e = .utf8), c && F.precision == 0⟩ false (floatLocOf loc sp.localized) sp.type) cps).map fun r => (r.1, encodes e r.2) := by
  rw [← argRead_spec e sp F hF ⟨true, fun _ s => (floatReader e loc cv seg sp).read (if (c && F.precision == 0) then .contiguous else .segmented 0) s⟩
    _ (floatReader_loc_whole hcv e loc seg sp hsep hp _) lay cps h hlay]
  have hsame : ∀ l l' s, (l = .contiguous ↔ l' = .contiguous) → (floatReader e loc cv seg sp).read l s = (floatReader e loc cv seg sp).read l' s := by
    intro l l' s hll
    show readFloatAs cv e (srcOf e l) seg _ _ s = readFloatAs cv e (srcOf e l') seg _ _ s
    have : srcOf e l = srcOf e l' := by unfold srcOf; simp [hll]
    rw [this]
  unfold argRead
  congr 1
  funext b
  congr 1
  unfold argValue
  rw [hF.precision]
  split
  · rename_i hp
    have hp' : (F.precision == 0) = false := by simpa using hp
    simp only [hp', Bool.and_false]
    rfl
  · rename_i hp
    have hp' : (F.precision == 0) = true := by simpa using hp
    simp only [hp', Bool.and_true]
    rw [hsame (lay b.1) (if c then .contiguous else .segmented 0) b.1 (by rw [hc]; cases c <;> simp)]

/-- "{:9L}" of a `double` on two blanks and "1,234.5". -/
example {cv : FloatConv Nat} {round : List Nat → Rounded Nat} (hcv : ConvOk cv round) (v : Nat) (hv : round [49, 50, 51, 52, 46, 53] = .finite v) :
    let sp : Specs := { ({} : Specs) with width := 9, localized := true }
    argRead .utf8 sp (floatReader .utf8 ⟨44, 46, [], [], fun _ _ _ _ => .bad⟩ cv false sp) (fun _ => .contiguous)
      (encodes .utf8 [32, 32, 49, 44, 50, 51, 52, 46, 53]) = .ok (cv.copysign false v, []) := by
  intro sp
  rw [C36_localized_float_partial hcv .utf8 ⟨44, 46, [], [], fun _ _ _ _ => .bad⟩ false sp (fun _ => single_ascii _ (by decide)) (single_ascii _ (by decide)) ⟨9, 0, .unspecified, 32⟩
    ⟨rfl, rfl, rfl, rfl, ⟨by show (32:Nat) < _; decide, by show ¬ (_ ≤ (32:Nat) ∧ _); decide⟩⟩ _ true (by simp)
    [32, 32, 49, 44, 50, 51, 52, 46, 53] (by unfold IsScalar; decide) (fun t _ => by trivial)]
  have hl : LocOk ⟨44, 46⟩ := by unfold LocOk; decide
  have hr := C73_localized_partial hcv .utf32 ⟨true, true⟩ false ⟨44, 46⟩ hl (by decide) .none [] [49, 44, 50, 51, 52, 46, 53] [] (Or.inl rfl)
    (by rw [List.append_nil]
        exact longest_self ⟨[49, 44, 50, 51, 52, 46, 53], [], rfl, ⟨[49, 44, 50, 51, 52], [46, 53], rfl, by decide, Or.inr ⟨[53], rfl, by decide⟩, Or.inl (by decide)⟩, Or.inl ⟨rfl, rfl⟩⟩)
    ⟨49, _, rfl, by decide⟩ (by intro _ x r h; cases h)
  have hb : PaddedField.before ⟨9, 0, .unspecified, 32⟩ true [32, 32, 49, 44, 50, 51, 52, 46, 53] = [32, 32] := by decide +kernel
  unfold PaddedField.read
  rw [hb]
  show (((readFloatAs cv .utf32 ⟨true, true⟩ false ⟨44, 46⟩ .none ([] ++ [49, 44, 50, 51, 52, 46, 53] ++ [])).bind _).map _ : Res (Nat × List Nat)) = _
  rw [hr]
  show ((scanned cv [] [] (round [49, 50, 51, 52, 46, 53])).bind _).map _ = _
  rw [hv]
  rfl

end Scn
