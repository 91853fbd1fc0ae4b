import Verif.Lemmas.ListGrammar
/-
C110: Ranges and tuples are read exactly if they are written with their brackets and separators.
-/
namespace Scn
open Spec

variable {V C : Type}

/-- A range, with brackets and a separator of one ASCII character each, none of them whitespace, and a separator that is not the closing bracket. The
    elements are read by any reader that ends between two characters of a well-formed text, and added in any way. Then the scan is successful if and only
    if the text is whitespace, the opening bracket, elements as the reader reads them with whitespace and a separator between any two, whitespace, and the
    closing bracket; and there are no more elements than the range can hold. The range gets these elements, in their order, and the source is left right
    after the closing bracket. -/
theorem C110_ranges (e : Enc) (lay : List Nat → Layout) (hl : GoodLayouts e lay) (b : Brackets) (hb : BracketMarks b) (c d : Nat)
    (hc : b.closing = [c]) (hd : b.separator = [d]) (hcd : d ≠ c)
    (rd : List Nat → Res (V × List Nat)) (hrd : Wholly e rd) (add : C → V → C) (n : Nat) (init : C) (p : List Nat) (hp : ∀ c ∈ p, IsScalar c)
    (range : C) (s : List Nat) :
    scanRange e lay b rd add n init (encodes e p) = .ok (range, s) ↔
      ∃ vs r, s = encodes e r ∧ range = vs.foldl add init ∧ RangeText b (Reads e rd) n vs p r :=
  scanRange_exact hl hb (by rw [hc, hd]; exact marks_differ hcd) hrd add n init hp range s

/-- The brackets of sequences. -/
example : BracketMarks .sequence ∧ Brackets.sequence.closing = [93] ∧ Brackets.sequence.separator = [44] ∧ (44 : Nat) ≠ 93 :=
  ⟨(range_marks (Or.inl rfl)).1, rfl, rfl, by decide⟩

/-- A tuple: the scan is successful if and only if the text is whitespace, the opening bracket if there is one, the members as their readers read them with
    whitespace and a separator between any two, whitespace, and the closing bracket if there is one. Without a closing bracket, something must be left
    after the whitespace. -/
theorem C110_tuples (e : Enc) (lay : List Nat → Layout) (hl : GoodLayouts e lay) (b : Brackets) (hb : BracketMarks b)
    (rds : List (List Nat → Res (V × List Nat))) (hrd : ∀ rd ∈ rds, Wholly e rd) (p : List Nat) (hp : ∀ c ∈ p, IsScalar c) (vs : List V) (s : List Nat) :
    scanTuple e lay b rds (encodes e p) = .ok (vs, s) ↔ ∃ r, s = encodes e r ∧ TupleText b (rds.map (Reads e)) vs p r :=
  scanTuple_exact hl hb hrd hp vs s

/-- The brackets of tuples and of the entries of maps. -/
example : BracketMarks .tuple ∧ BracketMarks .mapEntry := ⟨tuple_marks (Or.inl rfl), tuple_marks (Or.inr rfl)⟩

/-- Sequences, sets, maps and tuples of the library, nested in any way, with elements of all types that read whole characters. `sp` is the specification
    that is read from a well-formed format string without an error. The scanner is successful if and only if the text is written as `CollText` says, where
    each value of a built-in type is one that its own scanner reads. -/
theorem C110_collections (e wide : Enc) (gloc : LocaleData) (hloc : PlainLocale e gloc) (c : Coll) (hc : c.Ok e) (cfg : RegexCfg) (f : List Nat)
    (hf : ∀ c ∈ f, IsScalar c) (ty : ArgTy) (pos pos' : List Nat) (st : Setter) (hpos : pos <:+ encodes e f)
    (hparse : parseSpecs cfg e ty ⟨{}, false⟩ pos = some (st, pos')) (herr : st.err = false) (init : List CollVal) (p : List Nat) (hp : ∀ c ∈ p, IsScalar c)
    (v : CollVal) (s : List Nat) :
    c.scan e wide gloc st.specs init (encodes e p) = .ok (v, s) ↔
      ∃ q, s = encodes e q ∧
        CollText (fun d sp => Reads e fun s => builtinScan e wide gloc 0 (viewLayout sp s) d sp s) c st.specs init p v q :=
  (collScan_exact wide hloc (goodSpecs_default e) hc st.specs (goodSpecs_parsed hf hpos hparse herr) init p hp).2 v s

/-- The same without a specification. -/
theorem C110_collections_default (e wide : Enc) (gloc : LocaleData) (hloc : PlainLocale e gloc) (c : Coll) (hc : c.Ok e) (init : List CollVal)
    (p : List Nat) (hp : ∀ c ∈ p, IsScalar c) (v : CollVal) (s : List Nat) :
    c.scan e wide gloc {} init (encodes e p) = .ok (v, s) ↔
      ∃ q, s = encodes e q ∧ CollText (fun d sp => Reads e fun s => builtinScan e wide gloc 0 (viewLayout sp s) d sp s) c {} init p v q :=
  (collScan_exact wide hloc (goodSpecs_default e) hc {} (goodSpecs_default e) init p hp).2 v s

/-- A map from strings to lists of integers; `:x}` is a specification. -/
example : (Coll.range .set 100 (.tuple .mapEntry [.item (.string .utf8), .range .sequence 10 (.item (.int ⟨32, true⟩ .int))])).Ok .utf8 ∧
    (parseSpecs ⟨true, true, true⟩ .utf8 .int ⟨{}, false⟩ [120, 125]).map (fun r => r.1.err) = some false := by
  refine ⟨.range (Or.inr rfl) (.tuple (Or.inr rfl) ?_), by decide +kernel⟩
  intro m hm
  rcases List.mem_cons.1 hm with rfl | hm
  · exact .item trivial
  · rw [List.mem_singleton.1 hm]
    exact .range (Or.inl rfl) (.item (Or.inl rfl))

/-- Sequences and sets of integers of up to 32 bits, down to the last character: the scan is successful if and only if the text is a list of decimal integers
    that fit the type, and these are the elements. -/
theorem C110_integers (e wide : Enc) (gloc : LocaleData) (hloc : PlainLocale e gloc) (b : Brackets) (hb : b = .sequence ∨ b = .set) (n : Nat)
    (T : IntTy) (hT : T.bits = 8 ∨ T.bits = 16 ∨ T.bits = 32) (ty : ArgTy)
    (hty : ty ∈ [ArgTy.schar, .short, .int, .long, .llong, .uchar, .ushort, .uint, .ulong, .ullong]) (init : List CollVal)
    (p : List Nat) (hp : ∀ c ∈ p, IsScalar c) (v : CollVal) (s : List Nat) :
    (Coll.range b n (.item (.int T ty))).scan e wide gloc {} init (encodes e p) = .ok (v, s) ↔
      ∃ xs q, v = .list (init ++ xs.map fun x => .val (.int x)) ∧ s = encodes e q ∧ RangeText b (IntegerAt T) n xs p q := by
  have hit : IntType (.int T ty) := ⟨fun _ _ _ h => (by cases h), fun T' ty' h => by cases h; exact hty⟩
  have hok : (Coll.range b n (.item (.int T ty))).Ok e := by
    refine .range hb (.item ?_)
    simp only [List.mem_cons, List.not_mem_nil, or_false] at hty
    rcases hty with rfl | rfl | rfl | rfl | rfl | rfl | rfl | rfl | rfl | rfl <;> first | exact Or.inl rfl | exact Or.inr rfl
  rw [C110_collections_default e wide gloc hloc _ hok init p hp v s]
  have hrel : ∀ p v q, (∀ x ∈ p, IsScalar x) →
      (CollText (fun d sp => Reads e fun s => builtinScan e wide gloc 0 (viewLayout sp s) d sp s) (.item (.int T ty)) {} [] p v q ↔
        ∃ x, v = CollVal.val (.int x) ∧ IntegerAt T p x q) := by
    intro p v q hp
    rw [CollText]
    constructor
    · rintro ⟨y, rfl, h⟩
      obtain ⟨x, rfl, h2⟩ := (itemRead_integer wide gloc hT hit hp y q).1 h
      exact ⟨x, rfl, h2⟩
    · rintro ⟨x, rfl, h⟩
      exact ⟨_, rfl, (itemRead_integer wide gloc hT hit hp (.int x) q).2 ⟨x, rfl, h⟩⟩
  have hsuf : ∀ p v q, (∃ x, v = CollVal.val (.int x) ∧ IntegerAt T p x q) → q <:+ p := by
    rintro p v q ⟨x, rfl, sg, ds, h, -⟩
    exact (show q <:+ p.dropWhile isSpace by rw [h]; exact ⟨sg ++ ds, by simp⟩).trans (List.dropWhile_suffix _)
  have htext := fun vs q => rangeText_iff (b := b) (P := fun p => ∀ x ∈ p, IsScalar x) (fun p q h hp x hx => hp x (h.subset hx)) hsuf
    (fun p v q hp => (hrel p v q hp).symm) n vs p q hp
  constructor
  · rintro ⟨q, rfl, h⟩
    rw [CollText] at h
    obtain ⟨vs, rfl, h⟩ := h
    obtain ⟨xs, rfl, h2⟩ := (rangeText_map (fun x => CollVal.val (.int x)) (IntegerAt T) n vs p q).1 ((htext vs q).2 h)
    exact ⟨xs, q, rfl, rfl, h2⟩
  · rintro ⟨xs, q, rfl, rfl, h⟩
    refine ⟨q, rfl, ?_⟩
    rw [CollText]
    exact ⟨_, rfl, (htext _ q).1 ((rangeText_map (fun x => CollVal.val (.int x)) (IntegerAt T) n _ p q).2 ⟨xs, rfl, h⟩)⟩

/-- " [ 1 , -2]." is such a list. -/
example : RangeText .sequence (IntegerAt ⟨32, true⟩) 100 [1, -2] [32, 91, 32, 49, 32, 44, 32, 45, 50, 93, 46] [46] := by
  refine ⟨by decide, ⟨[32, 49, 32, 44, 32, 45, 50, 93, 46], [93, 46], ⟨by decide, by decide⟩, ?_, ⟨by decide, by decide⟩⟩, ?_⟩
  · refine ⟨_, [32, 44, 32, 45, 50, 93, 46], rfl, ⟨[], [49], by decide, by decide, by decide, by decide, ?_, by decide, by decide⟩,
      [32, 45, 50, 93, 46], [93, 46], ⟨by decide, by decide⟩, ⟨[45], [50], by decide, by decide, by decide, by decide, ?_, by decide, by decide⟩, rfl⟩
    · intro c hc; simp at hc; subst hc; decide
    · intro c hc; simp at hc; subst hc; decide
  · intro _ p1 r' h1 h2
    have h3 : SkipsTo [91] [32, 91, 32, 49, 32, 44, 32, 45, 50, 93, 46] [32, 49, 32, 44, 32, 45, 50, 93, 46] := ⟨by decide, by decide⟩
    cases skipsTo_inj h3 h1
    have : [49, 32, 44, 32, 45, 50, 93, 46] = 93 :: r' := h2.1
    cases this

/-- "[1,]", "[1 2]", "[,1]", "[1", "1]" and, in a range that holds one element, "[1,2]" are not read. -/
example : ∀ s ∈ [[91, 49, 44, 93], [91, 49, 32, 50, 93], [91, 44, 49, 93], [91, 49], [49, 93], [91, 49, 44, 50, 93]],
    scanRange .utf8 viewSource .sequence
      (builtinScan .utf8 .utf32 ⟨44, 46, [], [], fun _ _ _ _ => .bad⟩ 0 (fun _ => .contiguous) (.int ⟨32, true⟩ .int) {}) (fun l v => l ++ [v]) 1 [] s =
        .err (if s = [91, 49] then .endOfInput else .invalidScannedValue) := by decide +kernel

end Scn
