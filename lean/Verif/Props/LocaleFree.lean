import Verif.Lemmas.LocaleFree
import Verif.Lemmas.LocaleFree2
import Verif.Props.Chrono
/-
Properties of locales that nobody asks for: C106.
-/
namespace Scn
open Spec

theorem vscan_locale {e wide : Enc} {cfg : RegexCfg} {loc loc' : LocaleData} (hr : loc'.regex = loc.regex) {old : Nat} {ds : List Dest} (hds : ∀ d ∈ ds, d.Typed)
    {lay : List Nat → Layout} {A B : Env Val} {win : List Nat → Option Nat}
    (hA : (A = stdEnv e wide cfg loc old ds ∧ B = stdEnv e wide cfg loc' old ds) ∨
      (A = bufEnv e wide cfg loc old lay win ds ∧ B = bufEnv e wide cfg loc' old lay win ds)) {fmt : List Nat} (hf : ¬ AsksLocale fmt) (src : List Nat) :
    vscan B fmt src = vscan A fmt src := by
  have hB : (B = stdEnv e wide cfg loc' old ds ∧ A = stdEnv e wide cfg loc old ds) ∨
      (B = bufEnv e wide cfg loc' old lay win ds ∧ A = bufEnv e wide cfg loc old lay win ds) := by
    rcases hA with ⟨h, h'⟩ | ⟨h, h'⟩
    · exact Or.inl ⟨h', h⟩
    · exact Or.inr ⟨h', h⟩
  cases h : vscan A fmt src with
  | some r => exact vscan_simulate (env_locale hr hds hA) fmt src trivial hf h
  | none =>
    cases h' : vscan B fmt src with
    | none => rfl
    | some r => rw [vscan_simulate (env_locale hr.symm hds hB) fmt src trivial hf h'] at h; cases h

/-- **The locale has no effect on its own.** A call on a string or an iterator range that is given a locale does exactly what it does
    with any other one — the same values, the same errors, the same undefined behaviour, at the same places — if the format string does
    not ask for the locale: no `L` stands at the end of a field, or before the letter at its end. All built-in types, flags and source texts. -/
theorem C106_call (e wide : Enc) (cfg : RegexCfg) (loc loc' : LocaleData) (hr : loc'.regex = loc.regex) (old : Nat) (ds : List Dest) (hds : ∀ d ∈ ds, d.Typed)
    (fmt : List Nat) (hf : ¬ AsksLocale fmt) (src : List Nat) :
    vscan (stdEnv e wide cfg loc' old ds) fmt src = vscan (stdEnv e wide cfg loc old ds) fmt src :=
  vscan_locale hr hds (lay := fun _ => .contiguous) (win := fun _ => none) (Or.inl ⟨rfl, rfl⟩) hf src

/-- The same, of buffered sources, however they are cut into pieces. -/
theorem C106_buffered (e wide : Enc) (cfg : RegexCfg) (loc loc' : LocaleData) (hr : loc'.regex = loc.regex) (old : Nat) (lay : List Nat → Layout)
    (win : List Nat → Option Nat) (ds : List Dest) (hds : ∀ d ∈ ds, d.Typed) (fmt : List Nat) (hf : ¬ AsksLocale fmt) (src : List Nat) :
    vscan (bufEnv e wide cfg loc' old lay win ds) fmt src = vscan (bufEnv e wide cfg loc old lay win ds) fmt src :=
  vscan_locale hr hds (Or.inr ⟨rfl, rfl⟩) hf src

/-- **Argument by argument**: a field without the flag is read alike under two locales, whatever the other fields of the call ask for. -/
theorem C106_field (e wide : Enc) (loc loc' : LocaleData) (hr : loc'.regex = loc.regex) (old : Nat) (d : Dest) (sp : Specs) (hl : sp.localized = false)
    (lay : List Nat → Layout) (s : List Nat) : d.readSpecs e wide loc' old sp lay s = d.readSpecs e wide loc old sp lay s := by
  unfold Dest.readSpecs
  rw [specsReader_locale hr hl]

theorem chronoCustom_locale {T : Type} {cfg cfg' : ChronoCfg} (hc : SameButLocale cfg cfg') {set : TmSetter T} (hs : set.Leaves) (gmtoff : Bool) (k : TmKind)
    {pos : List Nat} (hf : pos.head? ≠ some 76) (t : T) (src : List Nat) :
    chronoCustom cfg' gmtoff k set t pos src = chronoCustom cfg gmtoff k set t pos src := by
  unfold chronoCustom
  rw [hc.enc]
  cases h : chronoParse cfg.enc gmtoff k pos with
  | ub => rfl
  | err x => rfl
  | ok x =>
    obtain ⟨fmt, p⟩ := x
    dsimp only
    rw [chronoScan_locale hc hs ?_ t src]
    unfold chronoParse at h
    split at h
    · cases h
    · rename_i c r
      split at h
      · cases h
      · split at h
        · cases h
        · split at h
          · cases h
          · cases h
            intro hh
            generalize (c :: r).length - p.length = n at hh
            cases n with
            | zero => cases hh
            | succ n => exact hf hh

/-- **Dates and times** do not look at the locale either, if their format does not begin with `L`: two calls whose locales have any two `time_get` facets and decimal
    points do the same with a `std::tm`, a `tm_with_tz` and a `datetime_components`. This includes `%E…` and `%O…`, and the fraction of a second, whose
    decimal point is `.`. -/
theorem C106_chrono (cfg : ChronoCfg) (facet : List Nat → List Nat → Option (Tm × List Nat)) (point : Nat) (gmtoff : Bool) (pos : List Nat)
    (hf : pos.head? ≠ some 76) (src : List Nat) :
    let cfg' : ChronoCfg := { cfg with facet := facet, decimalPoint := point }
    (∀ k t, chronoCustom cfg' gmtoff k (tmSetter gmtoff) t pos src = chronoCustom cfg gmtoff k (tmSetter gmtoff) t pos src) ∧
    (∀ k t, chronoCustom cfg' gmtoff k (tmTzSetter gmtoff) t pos src = chronoCustom cfg gmtoff k (tmTzSetter gmtoff) t pos src) ∧
    ∀ k t, chronoCustom cfg' gmtoff k dtSetter t pos src = chronoCustom cfg gmtoff k dtSetter t pos src :=
  have hc : SameButLocale cfg { cfg with facet := facet, decimalPoint := point } := ⟨rfl, rfl, rfl, rfl⟩
  ⟨fun k t => chronoCustom_locale hc (tmSetterOn_leaves _ _ _) gmtoff k hf t src, fun k t => chronoCustom_locale hc (tmTzSetter_leaves _) gmtoff k hf t src,
    fun k t => chronoCustom_locale hc dtSetter_leaves gmtoff k hf t src⟩

/-- A locale with `,` between thousands, and a locale with `.` there. -/
def exComma : LocaleData := ⟨44, 46, [121], [110], fun _ _ _ _ => .bad⟩
def exDot : LocaleData := ⟨46, 44, [106], [110], fun _ _ _ _ => .bad⟩

/-- `"Level {:d}"`: the `L` is text, and the number is read without either locale. -/
example : (∀ d ∈ [(Dest.int ⟨32, true⟩ .int)], d.Typed) ∧ ¬ AsksLocale [76, 101, 118, 101, 108, 32, 123, 58, 100, 125] ∧
    vscan (stdEnv .utf8 .utf32 ⟨true, true, true⟩ exDot 0 [.int ⟨32, true⟩ .int]) [76, 101, 118, 101, 108, 32, 123, 58, 100, 125] [76, 101, 118, 101, 108, 32, 49, 44, 50] =
      vscan (stdEnv .utf8 .utf32 ⟨true, true, true⟩ exComma 0 [.int ⟨32, true⟩ .int]) [76, 101, 118, 101, 108, 32, 123, 58, 100, 125] [76, 101, 118, 101, 108, 32, 49, 44, 50] := by
  have hf : ¬ AsksLocale [76, 101, 118, 101, 108, 32, 123, 58, 100, 125] := by
    rintro ⟨t, h | ⟨c, hc, h⟩⟩ <;> simp [List.suffix_cons_iff] at h
  have hds : ∀ d ∈ [Dest.int ⟨32, true⟩ .int], d.Typed := fun d hd => by simp at hd; subst hd; exact Or.inl rfl
  exact ⟨fun d hd => hds d hd, hf, C106_call .utf8 .utf32 ⟨true, true, true⟩ exComma exDot rfl 0 _ hds _ hf _⟩

/-- With the flag, `1,2` is the number 12 in one locale and 1 in the other. -/
example : AsksLocale [123, 58, 76, 125] ∧
    (vscan (stdEnv .utf8 .utf32 ⟨true, true, true⟩ exComma 0 [.int ⟨32, true⟩ .int]) [123, 58, 76, 125] [49, 44, 50]).map (fun x => x.1.toOption) = some (some []) ∧
    (vscan (stdEnv .utf8 .utf32 ⟨true, true, true⟩ exDot 0 [.int ⟨32, true⟩ .int]) [123, 58, 76, 125] [49, 44, 50]).map (fun x => x.1.toOption) = some (some [44, 50]) := by
  refine ⟨⟨[], Or.inl ?_⟩, ?_, ?_⟩
  · exact ⟨[123, 58], rfl⟩
  · decide +kernel
  · decide +kernel

/-- `%b` with the flag depends on the facet, and without it does not. -/
example : (chronoCustom exChrono true .tm (tmSetter true) {} [76, 37, 98, 125] [74, 97, 110]).2 = .err .invalidScannedValue ∧
    (chronoCustom { exChrono with facet := fun _ _ => some ({ mon := 4 }, []) } true .tm (tmSetter true) {} [76, 37, 98, 125] [74, 97, 110]).2 = .ok ({ mon := 4 }, []) ∧
    ([37, 98, 125] : List Nat).head? ≠ some 76 := by
  refine ⟨?_, ?_, ?_⟩ <;> decide +kernel

end Scn
