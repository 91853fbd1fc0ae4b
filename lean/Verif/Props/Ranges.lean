import Verif.Lemmas.Ranges3
import Verif.Lemmas.Advance
import Verif.Props.Driver
/-
C49, C50 and C64: ranges and tuples.
-/
namespace Scn
open Spec
variable {V C : Type}

/-! ### C49: sequences -/

/-- C49 for elements that are read as shown: in any whitespace, the text of a sequence yields its elements in
    order, added to the range, and the unused range starts right after the closing bracket. The brackets and the
    separator may be any texts beginning with an ASCII character other than whitespace, where the closing
    bracket begins unlike the separator and the elements.
    The full statement is about all elements; strings without whitespace after them are not read as shown,
    see `C49_violated_strings`. -/
theorem C49_roundtrip_partial (e : Enc) (lay : List Nat → Layout) (hl : GoodLayouts e lay)
    (opening sep close lead gap rest : List Nat)
    (hopen : Token opening) (hsep : Token sep) (hclose : Token close) (hdiff : close.head? ≠ sep.head?)
    (hrest : ∀ c ∈ rest, IsScalar c) (hlead : Spaces lead) (hgap : Spaces gap)
    (rd : List Nat → Res (V × List Nat)) (add : C → V → C) (maxSize : Nat) (init : C)
    (xs : List (Item V)) (hlen : xs.length ≤ maxSize) (htext : ∀ x ∈ xs, ∀ c ∈ x.text, IsScalar c)
    (hafter : ∀ x ∈ xs, Spaces x.after) (hst : ∀ x ∈ xs, StartsUnlike close x.text)
    (hrd : ∀ x ∈ xs, ReadsAs e rd x.val x.text x.follow) (hf : ItemsFollow sep xs (close ++ rest)) :
    scanRange e lay ⟨encodes e opening, encodes e close, encodes e sep⟩ rd add maxSize init
        (encodes e (lead ++ (opening ++ (itemsText sep gap xs ++ (close ++ rest))))) =
      .ok (xs.foldl (fun a x => add a x.val) init, encodes e rest) :=
  range_run e lay hl _ opening sep close lead gap rest ⟨rfl, rfl, rfl⟩ hopen hsep hclose hdiff hrest hlead hgap rd add
    maxSize init xs hlen ⟨htext, hafter⟩ hst hrd hf

/-- An integer with whitespace around it, as an element. -/
def Spec.intItem (before after : List Nat) (x : Int) : Item Val :=
  ⟨before ++ intText 10 x, .int x, NoDigitFirst 10, after⟩

/-- C49 for integers: a container of integers of any type, printed as `[x1,x2,…,xn]` with any whitespace around
    the brackets and the elements, is scanned into exactly these elements, and the unused range starts right after
    the closing bracket. (`cells`: the whitespace before and after each element, and the element.) -/
theorem C49_integers (e wide : Enc) (loc : LocaleData) (old : Nat) (lay : List Nat → Layout) (hl : GoodLayouts e lay)
    (T : IntTy) (hT : T.Std) (ty : ArgTy) (hty : IntType (.int T ty))
    (cells : List (List Nat × List Nat × Int)) (hc : ∀ x ∈ cells, Spaces x.1 ∧ Spaces x.2.1 ∧ InRange T x.2.2)
    (lead gap rest : List Nat) (hlead : Spaces lead) (hgap : Spaces gap) (hrest : ∀ c ∈ rest, IsScalar c)
    (maxSize : Nat) (hmax : cells.length ≤ maxSize) :
    scanRange e lay .sequence (builtinScan e wide loc old lay (.int T ty) {}) (fun l v => l ++ [v]) maxSize []
        (encodes e (lead ++ ([91] ++ (itemsText [44] gap (cells.map fun x => intItem x.1 x.2.1 x.2.2) ++ ([93] ++ rest))))) =
      .ok (cells.map fun x => .int x.2.2, encodes e rest) := by
  have hsh : ∀ x ∈ cells, Shows e (.int T ty) (.int x.2.2) (intText 10 x.2.2) (NoDigitFirst 10) :=
    fun x hx => .int T ty x.2.2 hT (hc x hx).2.2
  have hb : Brackets.sequence = ⟨encodes e [91], encodes e [93], encodes e [44]⟩ := by
    rw [encodes_asciis e [91] (by decide), encodes_asciis e [93] (by decide), encodes_asciis e [44] (by decide)]; rfl
  have hsp : ∀ ws : List Nat, Spaces ws → ∀ q : List Nat, (∀ c t, q = c :: t → ¬ IsDigit 10 c) → NoDigitFirst 10 (ws ++ q) := by
    intro ws h q hq c hc
    cases ws with
    | nil => cases q with
      | nil => cases hc
      | cons d t => simp at hc; subst hc; exact hq d t rfl
    | cons d t =>
      simp at hc; subst hc
      intro hd
      have h1 := digit_not_space hd
      rw [(h d (by simp)).2] at h1; cases h1
  have h44 : ¬ IsDigit 10 44 := by rintro ⟨d, h1, h2⟩; cases h1
  have h93 : ¬ IsDigit 10 93 := by rintro ⟨d, h1, h2⟩; cases h1
  have hfold : ∀ (ys : List (Item Val)) (acc : List Val), ys.foldl (fun a x => a ++ [x.val]) acc = acc ++ ys.map (·.val) := by
    intro ys
    induction ys with
    | nil => intro acc; simp
    | cons y ys ih => intro acc; rw [List.foldl_cons, ih]; simp
  have hfollow : ItemsFollow [44] (cells.map fun x => intItem x.1 x.2.1 x.2.2) ([93] ++ rest) := by
    clear hsh hmax
    induction cells with
    | nil => trivial
    | cons x cells ih =>
      refine ⟨?_, ih fun y hy => hc y (by simp [hy])⟩
      refine hsp _ (hc x (by simp)).2.1 _ ?_
      intro c t hct
      cases cells with
      | nil => cases hct; exact h93
      | cons y ys => cases hct; exact h44
  rw [hb]
  rw [C49_roundtrip_partial e lay hl [91] [44] [93] lead gap rest ⟨91, [], rfl, by decide, by decide, by simp⟩
    ⟨44, [], rfl, by decide, by decide, by simp⟩ ⟨93, [], rfl, by decide, by decide, by simp⟩ (by simp) hrest hlead hgap
    _ _ maxSize [] (cells.map fun x => intItem x.1 x.2.1 x.2.2) (by simpa using hmax) ?_ ?_ ?_ ?_ hfollow]
  · rw [hfold]; simp [intItem]
  · intro x hx
    obtain ⟨y, hy, rfl⟩ := List.mem_map.1 hx
    exact scalar_append (fun c h => ((hc y hy).1 c h).1) (shows_text (hsh y hy)).1
  · intro x hx
    obtain ⟨y, hy, rfl⟩ := List.mem_map.1 hx
    exact (hc y hy).2.1
  · intro x hx
    obtain ⟨y, hy, rfl⟩ := List.mem_map.1 hx
    obtain ⟨_, c, t, hct, hcs⟩ := shows_text (hsh y hy)
    refine ⟨y.1, c, t, by show y.1 ++ intText 10 y.2.2 = _; rw [hct], fun x hx => ((hc y hy).1 x hx).2, hcs, ?_⟩
    have : c ≠ 93 := by
      rintro rfl
      unfold intText at hct
      split at hct
      · cases hct
      · rw [List.nil_append] at hct
        exact h93 (numeral_digits 10 y.2.2.natAbs (by decide) (by decide) 93 (by rw [hct]; simp)).1
    simpa using Ne.symm this
  · intro x hx
    obtain ⟨y, hy, rfl⟩ := List.mem_map.1 hx
    exact shows_element e wide loc old lay hl (hsh y hy) hty y.1 (hc y hy).1 (fun _ => rfl)

/-- " [1 , -20]z" holds 1 and -20, and "z" is left. -/
example : IntType (.int ⟨32, true⟩ .int) ∧
    [32] ++ ([91] ++ (itemsText [44] [] [intItem [] [32] 1, intItem [32] [] (-20)] ++ ([93] ++ [122]))) =
      [32, 91, 49, 32, 44, 32, 45, 50, 48, 93, 122] ∧
    scanRange .utf8 (fun s => .segmented s.length) .sequence
      (builtinScan .utf8 .utf32 ⟨44, 46, [], [], fun _ _ _ _ => .bad⟩ 0 (fun s => .segmented s.length) (.int ⟨32, true⟩ .int) {}) (fun l v => l ++ [v]) 1000 []
      [32, 91, 49, 32, 44, 32, 45, 50, 48, 93, 122] = .ok ([.int 1, .int (-20)], [122]) :=
  ⟨⟨(fun _ _ _ h => by cases h), by intro T ty h; cases h; simp⟩, by decide +kernel, by decide +kernel⟩

/-- C49 for sets of integers, printed as `{x1,x2,…,xn}`: the elements are inserted in this order. -/
theorem C49_integer_sets (e wide : Enc) (loc : LocaleData) (old : Nat) (lay : List Nat → Layout) (hl : GoodLayouts e lay)
    (T : IntTy) (hT : T.Std) (ty : ArgTy) (hty : IntType (.int T ty))
    (cells : List (List Nat × List Nat × Int)) (hc : ∀ x ∈ cells, Spaces x.1 ∧ Spaces x.2.1 ∧ InRange T x.2.2)
    (lead gap rest : List Nat) (hlead : Spaces lead) (hgap : Spaces gap) (hrest : ∀ c ∈ rest, IsScalar c)
    (maxSize : Nat) (hmax : cells.length ≤ maxSize) (add : C → Val → C) (init : C) :
    scanRange e lay .set (builtinScan e wide loc old lay (.int T ty) {}) add maxSize init
        (encodes e (lead ++ ([123] ++ (itemsText [44] gap (cells.map fun x => intItem x.1 x.2.1 x.2.2) ++ ([125] ++ rest))))) =
      .ok (cells.foldl (fun a x => add a (.int x.2.2)) init, encodes e rest) := by
  have hsh : ∀ x ∈ cells, Shows e (.int T ty) (.int x.2.2) (intText 10 x.2.2) (NoDigitFirst 10) :=
    fun x hx => .int T ty x.2.2 hT (hc x hx).2.2
  have hb : Brackets.set = ⟨encodes e [123], encodes e [125], encodes e [44]⟩ := by
    rw [encodes_asciis e [123] (by decide), encodes_asciis e [125] (by decide), encodes_asciis e [44] (by decide)]; rfl
  have hsp : ∀ ws : List Nat, Spaces ws → ∀ q : List Nat, (∀ c t, q = c :: t → ¬ IsDigit 10 c) → NoDigitFirst 10 (ws ++ q) := by
    intro ws h q hq c hc
    cases ws with
    | nil => cases q with
      | nil => cases hc
      | cons d t => simp at hc; subst hc; exact hq d t rfl
    | cons d t =>
      simp at hc; subst hc
      intro hd
      have h1 := digit_not_space hd
      rw [(h d (by simp)).2] at h1; cases h1
  have h44 : ¬ IsDigit 10 44 := by rintro ⟨d, h1, h2⟩; cases h1
  have h125 : ¬ IsDigit 10 125 := by rintro ⟨d, h1, h2⟩; cases h1
  have hfollow : ItemsFollow [44] (cells.map fun x => intItem x.1 x.2.1 x.2.2) ([125] ++ rest) := by
    clear hsh hmax
    induction cells with
    | nil => trivial
    | cons x cells ih =>
      refine ⟨?_, ih fun y hy => hc y (by simp [hy])⟩
      refine hsp _ (hc x (by simp)).2.1 _ ?_
      intro c t hct
      cases cells with
      | nil => cases hct; exact h125
      | cons y ys => cases hct; exact h44
  rw [hb]
  rw [C49_roundtrip_partial e lay hl [123] [44] [125] lead gap rest ⟨123, [], rfl, by decide, by decide, by simp⟩
    ⟨44, [], rfl, by decide, by decide, by simp⟩ ⟨125, [], rfl, by decide, by decide, by simp⟩ (by simp) hrest hlead hgap
    _ _ maxSize init (cells.map fun x => intItem x.1 x.2.1 x.2.2) (by simpa using hmax) ?_ ?_ ?_ ?_ hfollow]
  · rw [List.foldl_map]; rfl
  · intro x hx
    obtain ⟨y, hy, rfl⟩ := List.mem_map.1 hx
    exact scalar_append (fun c h => ((hc y hy).1 c h).1) (shows_text (hsh y hy)).1
  · intro x hx
    obtain ⟨y, hy, rfl⟩ := List.mem_map.1 hx
    exact (hc y hy).2.1
  · intro x hx
    obtain ⟨y, hy, rfl⟩ := List.mem_map.1 hx
    obtain ⟨_, c, t, hct, hcs⟩ := shows_text (hsh y hy)
    refine ⟨y.1, c, t, by show y.1 ++ intText 10 y.2.2 = _; rw [hct], fun x hx => ((hc y hy).1 x hx).2, hcs, ?_⟩
    have : c ≠ 125 := by
      rintro rfl
      unfold intText at hct
      split at hct
      · cases hct
      · rw [List.nil_append] at hct
        exact h125 (numeral_digits 10 y.2.2.natAbs (by decide) (by decide) 125 (by rw [hct]; simp)).1
    simpa using Ne.symm this
  · intro x hx
    obtain ⟨y, hy, rfl⟩ := List.mem_map.1 hx
    exact shows_element e wide loc old lay hl (hsh y hy) hty y.1 (hc y hy).1 (fun _ => rfl)

/-- "{3, 1,3}" with elements inserted if they are new. -/
example : scanRange .utf8 (fun _ => .contiguous) .set
      (builtinScan .utf8 .utf32 ⟨44, 46, [], [], fun _ _ _ _ => .bad⟩ 0 (fun _ => .contiguous) (.int ⟨32, true⟩ .int) {})
      (fun l v => if v ∈ l then l else v :: l) 1000 []
      (encodes .utf8 ([] ++ ([123] ++ (itemsText [44] [] ([([], [], 3), ([32], [], 1), ([], [], 3)].map fun x => intItem x.1 x.2.1 x.2.2) ++ ([125] ++ []))))) =
    .ok ([.int 1, .int 3], []) := by
  exact C49_integer_sets .utf8 .utf32 _ 0 _ (goodLayouts_contiguous _) ⟨32, true⟩ (by decide) .int (by simp [IntType])
    [([], [], 3), ([32], [], 1), ([], [], 3)] (by unfold Spaces; decide) [] [] [] (by unfold Spaces; decide) (by unfold Spaces; decide) (by decide) 1000 (by decide) _ _

/-- C49: the sequence as the argument of a scan call: with "{}" its unused range is that of the call. -/
theorem C49_unused (env : Env V) (hc : env.count = 1) (src rest : List Nat) (v : V) (h : env.readDefault 0 src = .ok (v, rest)) :
    (vscan env [123, 125] src).map Prod.fst = some (.ok rest) := by
  have := (C42_value_agrees hc src).1
  rw [show scanSimple env src = .ok (v, rest) from h] at this
  cases hv : vscan env [123, 125] src with
  | none => rw [hv] at this; cases this
  | some r =>
    rw [hv] at this
    simp only [Option.map_some, Option.some.injEq, Prod.mk.injEq] at this ⊢
    exact this.1

/-- C49: what was shown for elements holds for sequences as elements of sequences (and of tuples): they are read
    as shown, too, whatever follows. -/
theorem C49_nested (e : Enc) (lay : List Nat → Layout) (hl : GoodLayouts e lay)
    (opening sep close lead gap : List Nat)
    (hopen : Token opening) (hsep : Token sep) (hclose : Token close) (hdiff : close.head? ≠ sep.head?)
    (hlead : Spaces lead) (hgap : Spaces gap)
    (rd : List Nat → Res (V × List Nat)) (add : C → V → C) (maxSize : Nat) (init : C)
    (xs : List (Item V)) (hlen : xs.length ≤ maxSize) (htext : ∀ x ∈ xs, ∀ c ∈ x.text, IsScalar c)
    (hafter : ∀ x ∈ xs, Spaces x.after) (hst : ∀ x ∈ xs, StartsUnlike close x.text)
    (hrd : ∀ x ∈ xs, ReadsAs e rd x.val x.text x.follow) (hf : ∀ rest, ItemsFollow sep xs (close ++ rest)) :
    ReadsAs e (scanRange e lay ⟨encodes e opening, encodes e close, encodes e sep⟩ rd add maxSize init)
      (xs.foldl (fun a x => add a x.val) init) (lead ++ (opening ++ (itemsText sep gap xs ++ close))) (fun _ => True) := by
  intro rest hrest _
  refine ⟨rest, ?_, hrest, rfl⟩
  rw [← C49_roundtrip_partial e lay hl opening sep close lead gap rest hopen hsep hclose hdiff hrest hlead hgap rd add
    maxSize init xs hlen htext hafter hst hrd (hf rest)]
  simp [List.append_assoc]

/-- "[[1,2], [3]]". -/
example : scanRange .utf8 (fun _ => .contiguous) .sequence (scanRange .utf8 (fun _ => .contiguous) .sequence
      (builtinScan .utf8 .utf32 ⟨44, 46, [], [], fun _ _ _ _ => .bad⟩ 0 (fun _ => .contiguous) (.int ⟨32, true⟩ .int) {}) (fun l v => l ++ [v]) 1000 [])
      (fun l v => l ++ [v]) 1000 [] [91, 91, 49, 44, 50, 93, 44, 32, 91, 51, 93, 93] =
    .ok ([[.int 1, .int 2], [.int 3]], []) := by decide +kernel

/-- C49 fails for strings: an element extends to the next whitespace, so that the text of a sequence of strings
    without whitespace (e.g. "[a,b]") is an error, whatever the strings. -/
theorem C49_violated_strings (wide : Enc) (e : Enc) (loc : LocaleData) (old : Nat) (t : List Nat)
    (ht : ∀ c ∈ t, IsScalar c ∧ isSpace c = false) (hne : t.head? ≠ none ∧ t.head? ≠ some 93) (maxSize : Nat) (init : C)
    (add : C → Val → C) :
    scanRange e (fun _ => .contiguous) .sequence (builtinScan e wide loc old (fun _ => .contiguous) (.string e) {}) add (maxSize + 2) init
      (encodes e ([91] ++ (t ++ [93]))) = .err .endOfInput := by
  obtain ⟨c, r, rfl⟩ : ∃ c r, t = c :: r := by cases t with | nil => exact absurd rfl hne.1 | cons c r => exact ⟨c, r, rfl⟩
  have hl := goodLayouts_contiguous e
  have hall : ∀ x ∈ c :: r ++ [93], IsScalar x ∧ isSpace x = false := by
    intro x hx
    rcases List.mem_append.1 hx with h | h
    · exact ht x h
    · simp at h; subst h; exact ⟨ascii_scalar (by decide), by decide⟩
  have hall' : ∀ x ∈ c :: r ++ [93], IsScalar x := fun x hx => (hall x hx).1
  have hel := shows_element e wide loc old (fun _ => Layout.contiguous) hl (Shows.string (c :: r ++ [93]) hall (by simp))
    ⟨(fun _ _ _ h => by cases h), by intro T ty h; cases h⟩ [] (by intro x hx; cases hx) (by simp) [] (by simp) (Or.inl rfl)
  obtain ⟨p, hp1, _, hp3⟩ := hel
  have hc : isSpace c = false := (ht c (by simp)).2
  have h91 : encodes e [91] = [91] := encodes_asciis e [91] (by decide)
  have h93 : encodes e [93] = [93] := encodes_asciis e [93] (by decide)
  have hempty : ∀ (q t : List Nat), (∀ x ∈ q, IsScalar x) → q.dropWhile isSpace = [] →
      scanStr e (fun _ => .contiguous) (encodes e q) t = .err .endOfInput := by
    intro q t hq hd
    unfold scanStr
    rw [skipSpace_encodes e _ _ hq (by cases e <;> trivial), if_pos ⟨rfl, (dropWhile_nil_iff _ _).1 hd⟩]
    rfl
  unfold scanRange
  rw [show Brackets.sequence.opening = encodes e [91] from h91.symm,
    scanStr_token e _ hl _ [91] (c :: r ++ [93])
      (scalar_append (by simp; exact ascii_scalar (by decide)) hall') (head_drop (Or.inr ⟨91, _, rfl, by decide⟩)) (by simp), Res.bind_ok,
    rangeLoop, show Brackets.sequence.closing = encodes e [93] from h93.symm,
    scanStr_unlike e _ hl _ [93] (r ++ [93]) c hall' (by rw [List.cons_append, List.dropWhile_cons, if_neg (by simp [hc])])
      ⟨93, [], rfl, by decide, by decide, by simp⟩ (by simpa using fun h => hne.2 (by simp [← h]))]
  dsimp only
  rw [innerLoop, if_pos rfl, Res.bind_ok]
  rw [List.nil_append, List.append_nil] at hp1
  rw [hp1, Res.bind_ok, rangeLoop]
  have hps : ∀ x ∈ p, IsScalar x := by
    assumption
  rw [show Brackets.sequence.closing = encodes e [93] from h93.symm, hempty p _ hps (by simpa using hp3)]
  dsimp only
  rw [innerLoop, if_neg (by simp), hempty p _ hps (by simpa using hp3)]
  rfl

/-- "[a,b]". -/
example : (∀ c ∈ [97, 44, 98], IsScalar c ∧ isSpace c = false) ∧ [97, 44, 98].head? ≠ none ∧ [97, 44, 98].head? ≠ some 93 := by
  refine ⟨?_, by simp, by simp⟩
  intro c hc
  simp at hc
  rcases hc with rfl | rfl | rfl <;> exact ⟨ascii_scalar (by decide), by decide⟩

/-! ### C64: tuples and maps -/

/-- C64: the text of a tuple (of any size, of members of any types that are read as shown) with any whitespace
    around the brackets and members yields its members in order, and the unused range starts right after the
    closing bracket. -/
theorem C64_tuple_roundtrip (e : Enc) (lay : List Nat → Layout) (hl : GoodLayouts e lay)
    (lead gap rest : List Nat) (hrest : ∀ c ∈ rest, IsScalar c) (hlead : Spaces lead) (hgap : Spaces gap)
    (ms : List ((List Nat → Res (V × List Nat)) × Item V))
    (htext : ∀ m ∈ ms, ∀ c ∈ m.2.text, IsScalar c) (hafter : ∀ m ∈ ms, Spaces m.2.after)
    (hrd : ∀ m ∈ ms, ReadsAs e m.1 m.2.val m.2.text m.2.follow)
    (hf : ItemsFollow [44] (ms.map Prod.snd) ([41] ++ rest)) :
    scanTuple e lay .tuple (ms.map Prod.fst)
        (encodes e (lead ++ ([40] ++ (itemsText [44] gap (ms.map Prod.snd) ++ ([41] ++ rest))))) =
      .ok (ms.map fun m => m.2.val, encodes e rest) := by
  have ha : ∀ c : Nat, c < 128 → encodes e [c] = [c] := fun c hc => encodes_asciis e [c] (by simpa using hc)
  obtain ⟨p, h1, _, _, h4⟩ := tuple_run e lay hl .tuple [40] [44] [41] lead gap rest
    ⟨(ha 40 (by decide)).symm, (ha 44 (by decide)).symm, (ha 41 (by decide)).symm⟩
    (Or.inr ⟨40, [], rfl, by decide, by decide, by simp⟩) ⟨44, [], rfl, by decide, by decide, by simp⟩
    (Or.inr ⟨41, [], rfl, by decide, by decide, by simp⟩) hrest hlead hgap ms
    ⟨fun x hx => by obtain ⟨m, hm, rfl⟩ := List.mem_map.1 hx; exact htext m hm,
     fun x hx => by obtain ⟨m, hm, rfl⟩ := List.mem_map.1 hx; exact hafter m hm⟩ hrd hf (by simp) (by simp)
  rw [h1, h4 (by simp)]

/-- "( 5 ,true )" into an integer and a boolean; a member's text may begin with whitespace. -/
example : scanTuple .utf8 (fun _ => .contiguous) .tuple
      [builtinScan .utf8 .utf32 ⟨44, 46, [], [], fun _ _ _ _ => .bad⟩ 0 (fun _ => .contiguous) (.int ⟨32, true⟩ .int) {},
       builtinScan .utf8 .utf32 ⟨44, 46, [], [], fun _ _ _ _ => .bad⟩ 0 (fun _ => .contiguous) .bool {}]
      [40, 32, 53, 32, 44, 116, 114, 117, 101, 32, 41] = .ok ([.int 5, .bool true], []) ∧
    ReadsAs .utf8 (builtinScan .utf8 .utf32 ⟨44, 46, [], [], fun _ _ _ _ => .bad⟩ 0 (fun _ => .contiguous) .bool {}) (.bool true) ([32] ++ trueWord) (fun _ => True) :=
  ⟨by decide +kernel, shows_element .utf8 .utf32 _ 0 _ (goodLayouts_contiguous _) (.bool true) ⟨(fun _ _ _ h => by cases h), by intro T ty h; cases h⟩ [32]
    (by intro c hc; simp at hc; subst hc; exact ⟨ascii_scalar (by decide), by decide⟩) (fun _ => rfl)⟩

/-- C64: an entry `key: value` of a map is read as shown where something other than whitespace follows; so the
    theorem on sequences (`C49_roundtrip_partial`, with braces) applies to maps. -/
theorem C64_map_entry (e : Enc) (lay : List Nat → Layout) (hl : GoodLayouts e lay) (lead : List Nat) (hlead : Spaces lead)
    (k v : (List Nat → Res (V × List Nat)) × Item V)
    (htext : ∀ m ∈ [k, v], ∀ c ∈ m.2.text, IsScalar c) (hafter : ∀ m ∈ [k, v], Spaces m.2.after)
    (hrd : ∀ m ∈ [k, v], ReadsAs e m.1 m.2.val m.2.text m.2.follow)
    (hstart : ∃ c r, k.2.text = c :: r ∧ isSpace c = false) :
    ReadsAs e (scanTuple e lay .mapEntry [k.1, v.1]) [k.2.val, v.2.val]
      (lead ++ (k.2.text ++ (k.2.after ++ ([58] ++ (v.2.text ++ v.2.after)))))
      (fun rest => rest.dropWhile isSpace ≠ [] ∧ ItemsFollow [58] [k.2, v.2] rest) := by
  intro rest hrest hf
  have ha : encodes e [58] = [58] := encodes_asciis e [58] (by simp)
  obtain ⟨p, h1, h2, h3, _⟩ := tuple_run e lay hl .mapEntry [] [58] [] lead [] rest
    ⟨rfl, ha.symm, rfl⟩ (Or.inl rfl) ⟨58, [], rfl, by decide, by decide, by simp⟩ (Or.inl rfl) hrest hlead (by intro c hc; cases hc) [k, v]
    ⟨fun x hx => by obtain ⟨m, hm, rfl⟩ := List.mem_map.1 hx; exact htext m hm,
     fun x hx => by obtain ⟨m, hm, rfl⟩ := List.mem_map.1 hx; exact hafter m hm⟩ hrd (by simpa using hf.2)
    (fun _ => by
      obtain ⟨c, r, hc, hs⟩ := hstart
      exact ⟨c, r ++ (k.2.after ++ moreItems [58] [v.2]), by simp [itemsText, hc], hs⟩)
    (fun _ => hf.1)
  refine ⟨p, ?_, h2, h3⟩
  rw [← show [k, v].map (fun m => m.2.val) = [k.2.val, v.2.val] from rfl, ← h1]
  simp [itemsText, moreItems, List.append_assoc]

/-- "{1: 2, 3:4 }" into a map. -/
example : scanRange .utf8 (fun _ => .contiguous) .set (scanTuple .utf8 (fun _ => .contiguous) .mapEntry
      [builtinScan .utf8 .utf32 ⟨44, 46, [], [], fun _ _ _ _ => .bad⟩ 0 (fun _ => .contiguous) (.int ⟨32, true⟩ .int) {},
       builtinScan .utf8 .utf32 ⟨44, 46, [], [], fun _ _ _ _ => .bad⟩ 0 (fun _ => .contiguous) (.int ⟨32, true⟩ .int) {}])
      (fun l v => l ++ [v]) 1000 [] [123, 49, 58, 32, 50, 44, 32, 51, 58, 52, 32, 125] =
    .ok ([[.int 1, .int 2], [.int 3, .int 4]], []) := by decide +kernel

/-! ### C50: truncated sources -/

/-- C50 for brackets and separators of at most one code unit (the defaults are), and elements whose scanner is
    itself free of undefined behaviour: scanning a range from any source is free of undefined behaviour, and if it
    succeeds, the source contained the closing bracket right before the unused range: a source cut off before it is an error.
    The full statement allows brackets and separators of any length; it is false, see
    `C50_violated_long_bracket`. -/
theorem C50_ranges_partial (e : Enc) (lay : List Nat → Layout) (b : Brackets)
    (hb : b.opening.length ≤ 1 ∧ b.closing.length ≤ 1 ∧ b.separator.length ≤ 1)
    (rd : List Nat → Res (V × List Nat)) (hrd : Safe e rd) (add : C → V → C) (maxSize : Nat) (init : C) (s : List Nat) (hs : UnitsOk e s) :
    scanRange e lay b rd add maxSize init s ≠ .ub ∧
      ∀ v r, scanRange e lay b rd add maxSize init s = .ok (v, r) → ∃ p, s = p ++ (b.closing ++ r) :=
  between_brackets hb.1 hb.2.1 (rangeLoop e lay b rd add maxSize true init) (rangeLoop_safe hb.2.2 hb.2.1 hrd add maxSize true init) s hs

/-- C50 for tuples, as `C50_ranges_partial`. -/
theorem C50_tuples_partial (e : Enc) (lay : List Nat → Layout) (b : Brackets)
    (hb : b.opening.length ≤ 1 ∧ b.closing.length ≤ 1 ∧ b.separator.length ≤ 1)
    (rds : List (List Nat → Res (V × List Nat))) (hrd : ∀ rd ∈ rds, Safe e rd) (s : List Nat) (hs : UnitsOk e s) :
    scanTuple e lay b rds s ≠ .ub ∧ ∀ v r, scanTuple e lay b rds s = .ok (v, r) → ∃ p, s = p ++ (b.closing ++ r) :=
  between_brackets hb.1 hb.2.1 (tupleLoop e lay b rds true) (tupleLoop_safe hb.2.2 rds hrd true) s hs

/-- C50: integers of up to 32 bits are such elements, so scanning sequences of them is free of undefined
    behaviour on every source of bytes. -/
theorem C50_integers (wide : Enc) (loc : LocaleData) (old : Nat) (lay : List Nat → Layout) (T : IntTy)
    (hT : T.bits = 8 ∨ T.bits = 16 ∨ T.bits = 32) (ty : ArgTy) (hty : IntType (.int T ty)) :
    Safe .utf8 (builtinScan .utf8 wide loc old lay (.int T ty) {}) := by
  intro s hs
  unfold builtinScan Dest.readSpecs
  rw [typeCheck_default _ hty]
  dsimp only [Dest.specsReader]
  rw [argRead_plain _ {} ⟨rfl, rfl, rfl⟩]
  rw [if_pos (show ((intSpecsReader .utf8 loc T {}).mapVal Val.int).skipWs = true from rfl)]
  rcases skipSpace_all .utf8 (lay s) false s hs with ⟨p, hp, hps, _⟩ | hp
  · rw [hp, Res.bind_ok]
    show (readInt (srcOf .utf8 (lay p)) T ⟨10, false, none⟩ p).map _ ≠ .ub ∧ _
    have hd := readInt_defined (srcOf .utf8 (lay p)) T hT 10 false p (by omega) (fun _ c hc => hs rfl c (hps.subset hc))
    refine ⟨by cases h : readInt (srcOf .utf8 (lay p)) T ⟨10, false, none⟩ p with
      | ub => exact absurd h hd
      | err x => simp
      | ok a => simp, fun v r hr => ?_⟩
    change (readInt (srcOf .utf8 (lay p)) T ⟨10, false, none⟩ p).map _ = _ at hr
    cases h : readInt (srcOf .utf8 (lay p)) T ⟨10, false, none⟩ p with
    | ub => rw [h] at hr; cases hr
    | err x => rw [h] at hr; cases hr
    | ok a =>
      rw [h] at hr
      simp only [Res.map_ok, Res.ok.injEq, Prod.mk.injEq] at hr
      rw [← hr.2]
      exact (readInt_suffix (v := a.1) h).trans hps
  · rw [hp]; exact ⟨by simp, fun v r hr => by simp at hr⟩

/-- The default brackets are short; "[1,2" is an error. -/
example : (Brackets.sequence.opening.length ≤ 1 ∧ Brackets.sequence.closing.length ≤ 1 ∧ Brackets.sequence.separator.length ≤ 1) ∧
    scanRange .utf8 (fun _ => .contiguous) .sequence
      (builtinScan .utf8 .utf32 ⟨44, 46, [], [], fun _ _ _ _ => .bad⟩ 0 (fun _ => .contiguous) (.int ⟨32, true⟩ .int) {}) (fun l v => l ++ [v]) 1000 []
      [91, 49, 44, 50] = .err .endOfInput := ⟨by decide, by decide +kernel⟩

/-- C50 fails for a bracket of more than one code unit: a source that ends within it is read past its end. -/
theorem C50_violated_long_bracket (c d : Nat) (t close sep : List Nat) (hc : c < 128) (hs : isSpace c = false)
    (rd : List Nat → Res (V × List Nat)) (add : C → V → C) (maxSize : Nat) (init : C) :
    scanRange .utf8 (fun _ => .contiguous) ⟨c :: d :: t, close, sep⟩ rd add maxSize init [c] = .ub ∧
      scanTuple .utf8 (fun _ => .contiguous) ⟨c :: d :: t, close, sep⟩ ([] : List (List Nat → Res (V × List Nat))) [c] = .ub := by
  have h1 : encodes .utf8 [c] = [c] := encodes_asciis .utf8 [c] (by simpa using hc)
  have h2 := skipSpace_at .utf8 [c] (by simpa using ascii_scalar hc) ⟨c, [], rfl, hs⟩
  rw [h1] at h2
  have h3 : scanStr .utf8 (fun _ => .contiguous) [c] (c :: d :: t) = .ub := by
    unfold scanStr
    rw [h2]
    simp [matchUnits]
  exact ⟨by unfold scanRange; rw [h3]; rfl, by unfold scanTuple; rw [h3]; rfl⟩

/-- "<<". -/
example : (60 : Nat) < 128 ∧ isSpace 60 = false := by decide

end Scn
