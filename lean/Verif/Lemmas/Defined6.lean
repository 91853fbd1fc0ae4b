import Verif.Lemmas.Defined5
import Verif.Lemmas.Boundary5
/-
The ends of well-formed text: reading a code point there is well-defined.
-/
namespace Scn
open Spec

/-- The end of a well-formed text, possibly beginning inside a character. -/
def TextEnd (e : Enc) (s : List Nat) : Prop := ∃ cps, (∀ c ∈ cps, IsScalar c) ∧ s <:+ encodes e cps

theorem TextEnd.down {e : Enc} (s t : List Nat) (h : TextEnd e s) (ht : t <:+ s) : TextEnd e t := by
  obtain ⟨cps, h1, h2⟩ := h
  exact ⟨cps, h1, ht.trans h2⟩

theorem suffix_append_cases {a b s : List Nat} (h : s <:+ a ++ b) : s <:+ b ∨ ∃ w, w ≠ [] ∧ w <:+ a ∧ s = w ++ b := by
  obtain ⟨t, ht⟩ := h
  rcases List.append_eq_append_iff.1 ht with ⟨w, rfl, h2⟩ | ⟨w, rfl, h2⟩
  · by_cases hw : w = []
    · subst hw; left; rw [h2]; exact List.suffix_refl _
    · exact Or.inr ⟨w, hw, ⟨t, rfl⟩, h2⟩
  · left
    exact ⟨w, h2.symm⟩

theorem proper_suffix_tail {w a : List Nat} {u : Nat} {us : List Nat} (hw : w = u :: us) (h : w <:+ a) (hne : w ≠ a) : u ∈ a.tail := by
  obtain ⟨t, ht⟩ := h
  subst hw
  cases t with
  | nil => exact absurd ht hne
  | cons x t => rw [← ht]; simp

theorem encode_tail_start {e : Enc} {c u : Nat} (hc : IsScalar c) (hu : u ∈ (encode e c).tail) : cpLength e u = 0 := by
  cases e with
  | utf8 => exact trailing_cpLength8 (utf8_tail u hu)
  | utf16 =>
    have hd : decodeCp .utf16 (encode .utf16 c) = some c := by
      obtain ⟨x, xs, h1, _, h3⟩ := encode_head .utf16 c hc
      rw [h1]; exact h3
    have hne : c ≠ invalidCp := by have := hc.1; unfold invalidCp; omega
    cases hq : encode .utf16 c with
    | nil => rw [hq] at hu; cases hu
    | cons a l =>
      rw [hq] at hu hd
      cases l with
      | nil => cases hu
      | cons b l =>
        have hl : l = [] := by
          have h' : encode .utf16 c = utf16 c := rfl
          rw [h'] at hq
          unfold utf16 at hq
          split at hq <;> simp at hq
          exact hq.2.2.symm ▸ rfl
        subst hl
        simp at hu
        subst hu
        exact decoded_second hd hne
  | utf32 => cases hu

/-- The end of a well-formed text is empty, begins between two characters, or begins with a unit that
    cannot begin a character. -/
theorem TextEnd.cases {e : Enc} {s : List Nat} (h : TextEnd e s) :
    s = [] ∨ (∃ c rest, IsScalar c ∧ s = encode e c ++ rest) ∨ ∃ u us, s = u :: us ∧ cpLength e u = 0 := by
  obtain ⟨cps, hs, h⟩ := h
  induction cps with
  | nil => left; rw [encodes_nil] at h; exact List.suffix_nil.1 h
  | cons c cps ih =>
    rw [encodes_cons] at h
    rcases suffix_append_cases h with h1 | ⟨w, hw, h1, h2⟩
    · exact ih (fun d hd => hs d (List.mem_cons_of_mem _ hd)) h1
    · right
      by_cases hwe : w = encode e c
      · exact Or.inl ⟨c, _, hs c List.mem_cons_self, by rw [h2, hwe]⟩
      · right
        cases w with
        | nil => exact absurd rfl hw
        | cons u us => exact ⟨u, us ++ encodes e cps, h2, encode_tail_start (hs c List.mem_cons_self) (proper_suffix_tail rfl h1 hwe)⟩

theorem readCodePoint_sound {e : Enc} {s : List Nat} (h : TextEnd e s) (hne : s ≠ []) :
    Sound (readCodePoint e s) s ∧ ∀ c r, readCodePoint e s = .ok (c, r) → c < invalidCp := by
  rcases h.cases with h | ⟨c, rest, hc, rfl⟩ | ⟨u, us, rfl, hu⟩
  · exact absurd h hne
  · rw [readCodePoint_encode e c hc]
    refine ⟨Sound.ok _ (List.suffix_append _ _), fun c' r hx => ?_⟩
    cases hx
    have := hc.1
    unfold invalidCp
    omega
  · have : readCodePoint e (u :: us) = .err .invalidScannedValue := by
      unfold readCodePoint readCpInto
      simp [hu]
    rw [this]
    exact ⟨Sound.err _ _, fun _ _ hx => by cases hx⟩

theorem readWideChar_sound {e wide : Enc} {s : List Nat} (h : TextEnd e s) (hne : s ≠ []) : Sound (readWideChar e wide s) s := by
  obtain ⟨h1, h2⟩ := readCodePoint_sound h hne
  unfold readWideChar
  cases hr : readCodePoint e s with
  | ub => exact absurd hr h1.1
  | err x => exact Sound.err _ _
  | ok v =>
    have hv := h2 v.1 v.2 hr
    have hsuf := h1.2 v.1 v.2 hr
    show Sound ((encodeWide wide v.1 true).map fun c => (c, v.2)) s
    unfold encodeWide
    rw [if_neg (by omega)]
    cases wide with
    | utf32 => exact Sound.ok _ hsuf
    | _ =>
      dsimp only
      split
      · exact Sound.ok _ hsuf
      · exact Sound.err _ _

theorem TextEnd.units {e : Enc} {s : List Nat} (h : TextEnd e s) : UnitsOk e s := by
  obtain ⟨cps, h1, h2⟩ := h
  exact (encodes_unitsOk e h1).suffix h2

/-- Destinations that hold a character, whichever width the source has. -/
def Dest.Whole1 : Dest → Prop
  | .codePoint | .wchar => True
  | _ => False

theorem defaultRead_text (e wide : Enc) {d : Dest} (hd : d.Tame e ∨ d.Whole1) (lay : List Nat → Layout) (s : List Nat)
    (hs : TextEnd e s) : Sound (defaultRead e (d.defaultReader e wide) lay s) s := by
  rcases hd with hd | hd
  · exact defaultRead_sound _ (defaultReader_sound e wide hd) _ s hs.units
  · unfold defaultRead
    by_cases hne : s = []
    · rw [if_pos hne]; exact Sound.err _ _
    · rw [if_neg hne]
      cases d with
      | codePoint => exact (readCodePoint_sound hs hne).1.map _
      | wchar =>
        show Sound ((readWcharDefault e wide s).map _) s
        refine Sound.map ?_ _
        unfold readWcharDefault
        split
        · exact readWideChar_sound hs hne
        · exact readCodeUnit_sound s
      | _ => exact absurd hd id

theorem whole1_category {e : Enc} {d : Dest} (hd : d.Tame e ∨ d.Whole1) : d.argTy.category ≠ none ∧ d.argTy ≠ .custom := by
  rcases hd with hd | hd
  · exact tame_category hd
  · cases d with
    | codePoint => exact ⟨by decide, by decide⟩
    | wchar => exact ⟨by decide, by decide⟩
    | _ => exact absurd hd id

theorem stdEnv_text (e wide : Enc) (cfg : RegexCfg) (loc : LocaleData) (old : Nat) {ds : List Dest} (hds : ∀ d ∈ ds, d.Tame e ∨ d.Whole1)
    (fmt : List Nat) (hsp : ∀ d ∈ ds, ¬ d.Tame e → ∀ pos setter p, 58 :: pos <:+ fmt →
      parseSpecs cfg e d.argTy ⟨{}, false⟩ pos = some (setter, p) → setter.err = true ∨ runTypeCheck d.argTy setter.specs = some false) :
    EnvOk (stdEnv e wide cfg loc old ds) (TextEnd e) fmt where
  down := TextEnd.down
  skip s hs := readWhileSpace_total e s hs.units
  dflt id s hid hs := by
    have hid' : id < ds.length := hid
    show Sound (match ds[id]? with | none => .ub | some d => _) s
    rw [List.getElem?_eq_getElem hid']
    exact defaultRead_text e wide (hds _ (List.getElem_mem hid')) _ s hs
  specs id pos setter p s hid hpos hps he hs := by
    have hid' : id < ds.length := hid
    show Sound (match ds[id]? with | none => .ub | some d => _) s
    have hty : (stdEnv e wide cfg loc old ds).argTy id = (ds[id]'hid').argTy := by
      unfold Env.argTy
      rw [if_pos hid]
      show ((ds[id]?).map Dest.argTy).getD .none = _
      rw [List.getElem?_eq_getElem hid']
      rfl
    rw [List.getElem?_eq_getElem hid']
    by_cases ht : (ds[id]'hid').Tame e
    · exact readSpecs_sound e wide loc old ht (parseSpecs_accepted hps he).ok _ s hs.units
    · rw [hty] at hps
      rcases hsp _ (List.getElem_mem hid') ht pos setter p hpos hps with h | h
      · rw [he] at h; cases h
      · show Sound (Dest.readSpecs e wide loc old _ _ _ s) s
        unfold Dest.readSpecs
        rw [h]
        exact Sound.err _ _
  custom id pos s hc hs := by
    exfalso
    unfold Env.argTy at hc
    split at hc
    · rename_i hid
      have hid' : id < ds.length := hid
      have hc' : ((ds[id]?).map Dest.argTy).getD .none = .custom := hc
      rw [List.getElem?_eq_getElem hid'] at hc'
      exact (whole1_category (hds _ (List.getElem_mem hid'))).2 hc'
    · cases hc
  types id hid := Or.inl <| by
    have hid' : id < ds.length := hid
    show (((ds[id]?).map Dest.argTy).getD .none).category ≠ none
    rw [List.getElem?_eq_getElem hid']
    exact (whole1_category (hds _ (List.getElem_mem hid'))).1

theorem skipFill_nil (e : Enc) (n : Int) (f : Fill) (w : Bool) : skipFill e [] n f w = some ([], 0) := by
  have h1 : ∀ us : List Nat, readWhileFill us [] = some [] := by
    intro us
    unfold readWhileFill
    split <;> rfl
  unfold skipFill
  dsimp only
  split
  · rw [h1]
    cases w <;> simp
  · show (readWhileFill (f.units e) []).map _ = _
    rw [h1]
    cases w
    · rfl
    · simp [consumedWidth, countAfter, takeWidth, takeWidthAux]

end Scn
