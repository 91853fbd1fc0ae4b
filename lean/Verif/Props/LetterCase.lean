import Verif.Props.Specs
import Verif.Lemmas.LetterCase
/-
C115: integers are read without regard to the case of letters.
The vocabulary is in `Verif/Spec/LetterCase.lean` and `Verif/Spec/Calls.lean`.
-/
namespace Scn
open Spec

/-! ### C115 -/

/-- C115 for the reader of integers, in any base or with the base chosen by the prefix, from any source, contiguous or in segments, well-formed
    or not: two texts that differ in the case of letters only give the same value and rests that differ in the case of letters only, or the
    same error. Missing from the full claim: a control character 0x10 in front of the digits of a contiguous source of `char` (C07), and
    floating-point numbers. -/
theorem C115_integer_partial (k : Src) {T : IntTy} (hT : T.Std) {base : Nat} (hb : base = 0 ∨ (2 ≤ base ∧ base ≤ 36)) (uo : Bool) {s s' : List Nat}
    (hq : k.contiguous = true → k.narrow = true → (afterSign s).head? ≠ some 16) (hu : k.narrow = true → ∀ c ∈ s, c < 256) (hu' : k.narrow = true → ∀ c ∈ s', c < 256)
    (h : SameButCase s s') : SameReading (readInt k T ⟨base, uo, none⟩ s) (readInt k T ⟨base, uo, none⟩ s') := by
  rw [readInt_W k T hT base uo s hb hq hu, readInt_W k T hT base uo s' hb (fun h1 h2 hx => hq h1 h2 ((afterSign_case h).2 hx)) hu']
  exact scanIntW_case T base uo h

/-- "0xfFg" and "0XFfG" with the base chosen by the prefix: both are 255, and "g" or "G" is left; "0B12" and "0b12" are 1. -/
example : SameButCase [48, 120, 102, 70, 103] [48, 88, 70, 102, 71] ∧ (∀ c ∈ [48, 88, 70, 102, 71], c < 256) ∧
    (afterSign [48, 120, 102, 70, 103]).head? ≠ some 16 ∧
    readInt ⟨true, true⟩ ⟨32, true⟩ ⟨0, false, none⟩ [48, 120, 102, 70, 103] = .ok (255, [103]) ∧
    readInt ⟨true, true⟩ ⟨32, true⟩ ⟨0, false, none⟩ [48, 88, 70, 102, 71] = .ok (255, [71]) ∧
    readInt ⟨true, true⟩ ⟨32, true⟩ ⟨0, false, none⟩ [48, 66, 49, 50] = .ok (1, [50]) := by
  refine ⟨by unfold SameButCase; decide, by decide, by decide, by decide +kernel, by decide +kernel, by decide +kernel⟩

/-- C115 for a field with one of the letters `b B o x X d u i`, whatever call it is in: it reads two well-formed texts that differ in the case of
    letters only alike, in every encoding. Missing: as in `C115_integer_partial`. -/
theorem C115_letter_partial {e wide : Enc} {cfg : RegexCfg} {loc : LocaleData} {old : Nat} {ds : List Dest} {id : Nat} {T : IntTy} {ty : ArgTy}
    (hd : ds[id]? = some (.int T ty)) (hT : T.Std) (hty : ty.category = some .integer ∨ ty.category = some .unsignedInteger)
    {c b : Nat} {uo : Bool} (hc : intLetter c = some (b, uo)) :
    ∃ read, (∀ gap, FieldMeans (stdEnv e wide cfg loc old ds) ⟨gap, id, some [c], read⟩) ∧
      ∀ cps cps', (∀ x ∈ cps, IsScalar x ∧ x ≠ 16) → (∀ x ∈ cps', IsScalar x) → SameButCase cps cps' → SameReading (read (encodes e cps)) (read (encodes e cps')) := by
  obtain ⟨read, h1, h2⟩ := C82_integer_letters_partial (e := e) (wide := wide) (cfg := cfg) (loc := loc) (old := old) hd hT hty hc
  refine ⟨read, h1, fun cps cps' hs hs' hcase => ?_⟩
  have hq : (afterSign (encodes e (cps.dropWhile isSpace))).head? ≠ some 16 := afterSign_noDle fun x hx => hs x ((List.dropWhile_suffix _).subset hx)
  have hq' : (afterSign (encodes e (cps'.dropWhile isSpace))).head? ≠ some 16 := fun hx =>
    hq ((afterSign_case (encodes_case (fun c hm => (hs c ((List.dropWhile_suffix _).subset hm)).1) (fun c hm => hs' c ((List.dropWhile_suffix _).subset hm))
      (dropSpaces_case hcase))).2 hx)
  rw [h2 cps (fun x hx => (hs x hx).1) fun _ => hq, h2 cps' hs' fun _ => hq']
  exact afterSpaces_case (fun x hx => (hs x hx).1) hs' hcase fun h => sameReading_map Val.int (scanIntW_case T b uo h)

/-- C115 for pointers, which are read in base 16 with or without a prefix, in every encoding. Missing: as in `C115_integer_partial`. -/
theorem C115_pointer_partial {e wide : Enc} {cps cps' : List Nat} (hs : ∀ x ∈ cps, IsScalar x ∧ x ≠ 16) (hs' : ∀ x ∈ cps', IsScalar x) (hcase : SameButCase cps cps') :
    SameReading (defaultRead e (Dest.pointer.defaultReader e wide) (fun _ => .contiguous) (encodes e cps))
      (defaultRead e (Dest.pointer.defaultReader e wide) (fun _ => .contiguous) (encodes e cps')) := by
  rw [defaultRead_afterSpaces rfl fun x hx => (hs x hx).1, defaultRead_afterSpaces rfl hs']
  refine afterSpaces_case (fun x hx => (hs x hx).1) hs' hcase fun h => ?_
  have hb : ∀ {l : List Nat}, (∀ x ∈ l, IsScalar x) → (srcOf e .contiguous).narrow = true → ∀ c ∈ encodes e (l.dropWhile isSpace), c < 256 := fun hl hn => by
    have he := utf8_units hn
    subst he
    exact utf8s_bytes _ fun x hx => hl x ((List.dropWhile_suffix _).subset hx)
  exact sameReading_map Val.pointer (C115_integer_partial (srcOf e .contiguous) (by decide) (by decide) false
    (fun _ _ => afterSign_noDle fun x hx => hs x ((List.dropWhile_suffix _).subset hx)) (hb fun x hx => (hs x hx).1) (hb hs') h)

/-- "0xAb" and "0XaB" as pointers, and an `int` with `{:x}`. -/
example : SameButCase [32, 48, 120, 65, 98] [32, 48, 88, 97, 66] ∧ (∀ x ∈ [32, 48, 120, 65, 98], IsScalar x ∧ x ≠ 16) ∧ (∀ x ∈ [32, 48, 88, 97, 66], IsScalar x) ∧
    intLetter 120 = some (16, false) ∧ IntTy.Std ⟨32, true⟩ ∧ ArgTy.int.category = some .integer ∧
    (∀ t ∈ [[32, 48, 120, 65, 98], [32, 48, 88, 97, 66]],
      defaultRead .utf8 (Dest.pointer.defaultReader .utf8 .utf32) (fun _ => .contiguous) t = .ok (.pointer 171, [])) := by
  refine ⟨by unfold SameButCase; decide, by unfold IsScalar; decide, by unfold IsScalar; decide, rfl, by decide, rfl, by decide +kernel⟩

/-- C115 for an integer without a specification, in every encoding. Missing: as in `C115_integer_partial`. -/
theorem C115_default_partial {e wide : Enc} {T : IntTy} {ty : ArgTy} (hT : T.Std) {cps cps' : List Nat} (hs : ∀ x ∈ cps, IsScalar x ∧ x ≠ 16)
    (hs' : ∀ x ∈ cps', IsScalar x) (hcase : SameButCase cps cps') :
    SameReading (defaultRead e ((Dest.int T ty).defaultReader e wide) (fun _ => .contiguous) (encodes e cps))
      (defaultRead e ((Dest.int T ty).defaultReader e wide) (fun _ => .contiguous) (encodes e cps')) := by
  rw [defaultRead_afterSpaces rfl fun x hx => (hs x hx).1, defaultRead_afterSpaces rfl hs']
  refine afterSpaces_case (fun x hx => (hs x hx).1) hs' hcase fun h => ?_
  have hb : ∀ {l : List Nat}, (∀ x ∈ l, IsScalar x) → (srcOf e .contiguous).narrow = true → ∀ c ∈ encodes e (l.dropWhile isSpace), c < 256 := fun hl hn => by
    have he := utf8_units hn
    subst he
    exact utf8s_bytes _ fun x hx => hl x ((List.dropWhile_suffix _).subset hx)
  exact sameReading_map Val.int (C115_integer_partial (srcOf e .contiguous) hT (by decide) false
    (fun _ _ => afterSign_noDle fun x hx => hs x ((List.dropWhile_suffix _).subset hx)) (hb fun x hx => (hs x hx).1) (hb hs') h)

theorem numberField_read {ks : List Common} (hk : ∀ k ∈ ks, k.Ok) {x : CommonField} (hx : x.Ok ks) (hid : x.id < ks.length) (hf : NumberField ks x) {s s' : List Nat}
    (hs : Plainly s) (hs' : Plainly s') (h : SameButCase s s') (e wide : Enc) (loc : LocaleData) (old : Nat) :
    SameReading (fieldRead ks x e wide loc old (encodes e s)) (fieldRead ks x e wide loc old (encodes e s')) := by
  have hS' : ∀ c ∈ s', IsScalar c := fun c hc => (hs' c hc).1
  have hdef : ∀ k, ks[x.id]? = some k → x.spec = none → ∀ t, fieldRead ks x e wide loc old t = defaultRead e ((k.dest e).defaultReader e wide) (fun _ => .contiguous) t := by
    intro k hk2 hsp t
    have hm : (ks.map (Common.dest e))[x.id]? = some (k.dest e) := by rw [List.getElem?_map, hk2]; rfl
    unfold fieldRead
    rw [hsp]
    show (match (ks.map (Common.dest e))[x.id]? with | none => Res.ub | some d => _) = _
    rw [hm]
  rcases hf.2 with ⟨T, ty, hd, hsp⟩ | ⟨hd, hsp⟩
  · have hok : T.Std ∧ _ := hk _ (List.mem_of_getElem? hd)
    rcases hsp with hsp | ⟨c, ⟨b, uo⟩, hc, hsp⟩
    · rw [hdef _ hd hsp, hdef _ hd hsp]
      exact C115_default_partial hok.1 hs hS' h
    · have hm : (ks.map (Common.dest e))[x.id]? = some (.int T ty) := by rw [List.getElem?_map, hd]; rfl
      obtain ⟨read, h1, h2⟩ := C115_letter_partial (e := e) (wide := wide) (cfg := ⟨false, false, false⟩) (loc := loc) (old := old) hm hok.1 hok.2 hc
      have h3 := fieldIn_means hk hx hid e wide ⟨false, false, false⟩ loc old
      have hargty : (stdEnv e wide ⟨false, false, false⟩ loc old (ks.map (Common.dest e))).argTy x.id ≠ .custom := by
        rw [std_argTy hm]
        exact common_argTy (hk _ (List.mem_of_getElem? hd)) e
      have hr : (({ letter := some c } : Written).render e) = [c] := rfl
      have heq : fieldRead ks x e wide loc old = read := by
        refine fieldMeans_unique (gap := encodes e x.gap) (gap' := []) (spec := [c]) hargty ?_ (h1 [])
        unfold fieldIn at h3
        rw [hsp, Option.map_some, hr] at h3
        exact h3
      rw [heq]
      exact h2 s s' hs hS' h
  · rw [hdef _ hd hsp, hdef _ hd hsp]
    exact C115_pointer_partial hs hS' h

/-- C115 for whole calls, below 64 arguments, with contiguous sources: a call that reads integers, without a specification or with a letter, and
    pointers, with literal texts of ASCII without letters between them, does the same with two sources that differ in the case of letters only, in
    every encoding: it stores the same values in the same arguments, and reports the same error or leaves rests that differ in the case of letters
    only. Missing from the full claim: U+0010 in the source (C07), widths and alignments, and floating-point numbers. -/
theorem C115_call_partial {ks : List Common} (hk : ∀ k ∈ ks, k.Ok) (h64 : ks.length < 64) {auto : Bool} {xs : List CommonField} (hx : ∀ x ∈ xs, x.Ok ks ∧ NumberField ks x)
    (hn : Numbered auto (xs.map fun x => x.id) ks.length) {last : List Nat} (hlast : ∀ c ∈ last, (isSpace c = true ∨ c < 128) ∧ IsScalar c ∧ c ≠ 123 ∧ c ≠ 125)
    (hll : NoLetters last) {src src' : List Nat} (hsrc : ∀ c ∈ src, IsScalar c ∧ c ≠ 16) (hsrc' : ∀ c ∈ src', IsScalar c ∧ c ≠ 16) (h : SameButCase src src')
    (e wide : Enc) (cfg : RegexCfg) (loc : LocaleData) (old : Nat) :
    SameOutcome
      ((vscan (stdEnv e wide cfg loc old (ks.map (Common.dest e))) (callFormat auto (xs.map (CommonField.written e)) (encodes e last)) (encodes e src)).map
        fun r => (r.1, stored r.2))
      ((vscan (stdEnv e wide cfg loc old (ks.map (Common.dest e))) (callFormat auto (xs.map (CommonField.written e)) (encodes e last)) (encodes e src')).map
        fun r => (r.1, stored r.2)) := by
  have hex : ∀ x, ∃ R, x ∈ xs → ReadsAny R (fieldRead ks x) := by
    intro x
    by_cases hm : x ∈ xs
    · obtain ⟨R, h⟩ := field_any hk (hx x hm).1
      exact ⟨R, fun _ => h⟩
    · exact ⟨fun _ => .ub, fun h => absurd h hm⟩
  obtain ⟨R, hR⟩ := Classical.axiomOfChoice hex
  have hx1 : ∀ x ∈ xs, x.Ok ks := fun x hm => (hx x hm).1
  rw [vscan_any hk h64 hx1 hn hlast hsrc hR e wide cfg loc old, vscan_any hk h64 hx1 hn hlast hsrc' hR e wide cfg loc old]
  have hg : ∀ g ∈ xs.map (fun x => (⟨x.gap, x.id, none, R x⟩ : CallField Val)), CaseField g := by
    intro g hm
    obtain ⟨x, hxm, rfl⟩ := List.mem_map.1 hm
    refine ⟨(hx x hxm).2.1, (hR x hxm).suffix, fun s s' hs hs' hc => ?_⟩
    have hr := numberField_read hk (hx x hxm).1 (hn.below x.id (List.mem_map.2 ⟨x, hxm, rfl⟩)) (hx x hxm).2 hs hs' hc .utf32 wide loc old
    rw [(hR x hxm).read .utf32 wide loc old s hs, (hR x hxm).read .utf32 wide loc old s' hs'] at hr
    have hid : ∀ a : Res (Val × List Nat), (a.map fun r => (inEnc .utf32 r.1, encodes .utf32 r.2)) = a := by
      intro a
      cases a with
      | ok p =>
        obtain ⟨v, r⟩ := p
        rw [Res.map_ok, encodes_utf32]
        cases v <;> first | rfl | (simp only [inEnc, encodes_utf32])
      | err x => rfl
      | ub => rfl
    rwa [hid, hid] at hr
  exact cpResult_case hll hg hsrc hsrc' h (inOrder_suffix_case _ hg) e

/-- The fields of "{:x}; {}, {:i}". -/
def numberFields : List CommonField := [⟨[], 0, some { letter := some 120 }⟩, ⟨[59, 32], 1, none⟩, ⟨[44, 32], 2, some { letter := some 105 }⟩]

/-- The arguments: an `int`, a pointer and a `long long`. -/
def numberArgs : List Common := [.int ⟨32, true⟩ .int, .pointer, .int ⟨64, true⟩ .llong]

/-- "{:x}; {}, {:i}" with the sources "aB; 0xFf, 0b11z" and "Ab; 0XfF, 0B11Z". -/
example : (∀ k ∈ numberArgs, k.Ok) ∧ (∀ x ∈ numberFields, x.Ok numberArgs ∧ NumberField numberArgs x) ∧ Numbered true (numberFields.map fun x => x.id) numberArgs.length ∧
    SameButCase [97, 66, 59, 32, 48, 120, 70, 102, 44, 32, 48, 98, 49, 49, 122] [65, 98, 59, 32, 48, 88, 102, 70, 44, 32, 48, 66, 49, 49, 90] ∧
    ((vscan (stdEnv .utf8 .utf32 ⟨false, false, false⟩ ⟨44, 46, [], [], fun _ _ _ _ => .none⟩ 0 (numberArgs.map (Common.dest .utf8)))
      (callFormat true (numberFields.map (CommonField.written .utf8)) []) [97, 66, 59, 32, 48, 120, 70, 102, 44, 32, 48, 98, 49, 49, 122]).map
      fun r => (r.1.toOption, stored r.2)) = some (some [122], [(0, .int 171), (1, .pointer 255), (2, .int 3)]) := by
  refine ⟨?_, ?_, ⟨by decide, by decide, by decide, by decide⟩, by unfold SameButCase; decide, by decide +kernel⟩
  · intro k hk
    simp only [numberArgs, List.mem_cons, List.not_mem_nil, or_false] at hk
    rcases hk with rfl | rfl | rfl
    · exact ⟨by unfold IntTy.Std; decide, Or.inl rfl⟩
    · trivial
    · exact ⟨by unfold IntTy.Std; decide, Or.inl rfl⟩
  · have hletter : ∀ (i : Nat) c, c = 120 ∨ c = 105 → ∀ w : Written, some ({ letter := some c } : Written) = some w → w.localized = false ∧
        ∀ e, w.render e ≠ [] ∧ ∀ k, numberArgs[i]? = some k → w.Readable e (k.dest e).argTy [] := by
      intro i c hc w hw
      cases hw
      refine ⟨rfl, fun e => ⟨fun h => (by cases h), fun k _ => ⟨fun f a h => (by cases h), fun n h => (by cases h), fun n h => (by cases h), fun h => (by cases h), fun d h => ?_, fun h => ?_⟩⟩⟩
      · cases h; rcases hc with rfl | rfl <;> exact ⟨_, rfl⟩
      · cases h
    intro x hx
    simp only [numberFields, List.mem_cons, List.not_mem_nil, or_false] at hx
    rcases hx with rfl | rfl | rfl
    · exact ⟨⟨by unfold IsScalar; decide, hletter 0 120 (Or.inl rfl)⟩, by unfold NoLetters; decide, Or.inl ⟨_, _, rfl, Or.inr ⟨120, _, rfl, rfl⟩⟩⟩
    · exact ⟨⟨by unfold IsScalar; decide, fun w hw => (by cases hw)⟩, by unfold NoLetters; decide, Or.inr ⟨rfl, rfl⟩⟩
    · exact ⟨⟨by unfold IsScalar; decide, hletter 2 105 (Or.inr rfl)⟩, by unfold NoLetters; decide, Or.inl ⟨_, _, rfl, Or.inr ⟨105, _, rfl, rfl⟩⟩⟩

/-- C115 is about numbers, not about truth values: "true" is read as a `bool`, "TRUE" is not. -/
theorem C115_not_for_bool :
    SameButCase [116, 114, 117, 101] [84, 82, 85, 69] ∧
    (((vscan (stdEnv .utf8 .utf32 ⟨false, false, false⟩ ⟨44, 46, [], [], fun _ _ _ _ => .none⟩ 0 [.bool]) [123, 125] [116, 114, 117, 101]).map
      fun r => (r.1.toOption, stored r.2)) = some (some [], [(0, .bool true)])) ∧
    (((vscan (stdEnv .utf8 .utf32 ⟨false, false, false⟩ ⟨44, 46, [], [], fun _ _ _ _ => .none⟩ 0 [.bool]) [123, 125] [84, 82, 85, 69]).map
      fun r => r.1.toOption) = some none) := by
  refine ⟨by unfold SameButCase; decide, by decide +kernel, by decide +kernel⟩

end Scn
