import Verif.Lemmas.Boundary6
/-
Property C102: on well-formed text a scan stays between the characters.
-/
namespace Scn
open Spec

/-- On a source that is not contiguous. The format string and the source are well-formed; the destinations read whole characters; what the
    locale adds is single units and well-formed names; segments read on their own end between characters. Then whatever the call does, if it
    is successful it ends between two characters of the source, and every field is read from such a place, and up to one if it is read. -/
theorem C102_between_buffered (e wide : Enc) (cfg : RegexCfg) (loc : LocaleData) (hloc : PlainLocale e loc) (old : Nat) (lay : List Nat → Layout)
    (hlay : GoodLayouts e lay) (win : List Nat → Option Nat) (hwin : GoodWindows e win) (ds : List Dest) (hd : ∀ d ∈ ds, d.ByCharacter e)
    (f : List Nat) (hf : ∀ c ∈ f, IsScalar c) (cps : List Nat) (hs : ∀ c ∈ cps, IsScalar c) (res : Except Err (List Nat)) (evs : List (Event Val))
    (h : vscan (bufEnv e wide cfg loc old lay win ds) (encodes e f) (encodes e cps) = some (res, evs)) :
    (∀ rest, res = .ok rest → Between e cps rest) ∧
      ∀ id src r, Event.visit id src r ∈ evs → Between e cps src ∧ ∀ v rest, r = .ok (v, rest) → Between e cps rest := by
  obtain ⟨h1, h2⟩ := vscan_placed hs (bufEnv_keeps hloc old hlay hwin hd hs hf) h
  exact ⟨h1, fun id src r hev => h2 _ hev⟩

/-- On a contiguous source: a successful scan ends between two characters of its source, and every field begins and, if it is read, ends at
    such a place. -/
theorem C102_between (e wide : Enc) (cfg : RegexCfg) (loc : LocaleData) (hloc : PlainLocale e loc) (old : Nat) (ds : List Dest)
    (hd : ∀ d ∈ ds, d.ByCharacter e) (f : List Nat) (hf : ∀ c ∈ f, IsScalar c) (cps : List Nat) (hs : ∀ c ∈ cps, IsScalar c)
    (res : Except Err (List Nat)) (evs : List (Event Val))
    (h : vscan (stdEnv e wide cfg loc old ds) (encodes e f) (encodes e cps) = some (res, evs)) :
    (∀ rest, res = .ok rest → Between e cps rest) ∧
      ∀ id src r, Event.visit id src r ∈ evs → Between e cps src ∧ ∀ v rest, r = .ok (v, rest) → Between e cps rest :=
  C102_between_buffered e wide cfg loc hloc old (fun _ => .contiguous) (goodLayouts_contiguous e) (fun _ => none)
    (fun _ _ _ h => by cases h) ds hd f hf cps hs res evs h

/-- The locale of the examples, with a no-break space as separator in UTF-16. -/
example : PlainLocale .utf16 ⟨0xa0, 44, [118, 233], [102], fun _ _ _ _ => .bad⟩ :=
  ⟨by unfold Single IsScalar; decide, by unfold Single IsScalar; decide, ⟨[118, 233], by unfold IsScalar; decide, by decide⟩,
    ⟨[102], by unfold IsScalar; decide, by decide⟩⟩

/-- A byte that is not ASCII is no separator of such a locale in UTF-8. -/
example (loc : LocaleData) (h : loc.thsep = 0xa0) : ¬ PlainLocale .utf8 loc := by
  intro hl
  have := hl.thsep.2
  rw [h] at this
  exact absurd this (by decide)

/-- "{:é>4}x{:[éx]}" on "éé42xxé!" in UTF-8, into an integer and a string. -/
example : (∀ d ∈ [Dest.int ⟨32, true⟩ .int, .string .utf8], d.ByCharacter .utf8) ∧
    (vscan (stdEnv .utf8 .utf32 ⟨false, true, true⟩ ⟨44, 46, [], [], fun _ _ _ _ => .bad⟩ 0 [.int ⟨32, true⟩ .int, .string .utf8])
      (encodes .utf8 [123, 58, 233, 62, 52, 125, 120, 123, 58, 91, 233, 120, 93, 125]) (encodes .utf8 [233, 233, 52, 50, 120, 120, 233, 33])).map
        (fun x => match x.1 with | .ok rest => rest | .error _ => []) = some [33] := by
  refine ⟨?_, ?_⟩
  · intro d hd
    rcases List.mem_cons.1 hd with rfl | hd
    · exact Or.inl rfl
    · rw [List.mem_singleton.1 hd]; trivial
  · decide +kernel

theorem not_between {e : Enc} {cps : List Nat} (hs : ∀ c ∈ cps, IsScalar c) {u : Nat} {us : List Nat} (hu : cpLength e u = 0) :
    ¬ Between e cps (u :: us) := by
  rintro ⟨t, ht, h⟩
  obtain ⟨x, t', _, h1, h2, _⟩ := encodes_first (fun c hc => hs c (ht.subset hc)) h.symm
  rw [hu] at h1 h2
  have : (encode e x) = [] := h2.symm
  cases e with
  | utf8 =>
    have h' : utf8 x = [] := this
    unfold utf8 at h'
    split at h'
    · cases h'
    · split at h'
      · cases h'
      · split at h' <;> cases h'
  | utf16 =>
    have h' : utf16 x = [] := this
    unfold utf16 at h'
    split at h' <;> cases h'
  | utf32 => cases this

/-- A `char` is not a character: whenever the next character is not ASCII, the scan of a `char` from UTF-8 is successful and ends inside of
    it. -/
theorem C102_char_splits (wide : Enc) (cfg : RegexCfg) (loc : LocaleData) (old : Nat) (c : Nat) (hc : IsScalar c) (hn : 128 ≤ c)
    (cps : List Nat) (hs : ∀ c ∈ cps, IsScalar c) :
    ∃ rest evs, vscan (stdEnv .utf8 wide cfg loc old [.char]) [123, 125] (encodes .utf8 (c :: cps)) = some (.ok rest, evs) ∧
      ¬ Between .utf8 (c :: cps) rest := by
  obtain ⟨a, b, us, hu, hb⟩ : ∃ a b us, encodes .utf8 (c :: cps) = a :: b :: us ∧ isTrailing b = true := by
    rw [encodes_cons]
    have htail := @utf8_tail c
    have hx : encode .utf8 c = utf8 c := rfl
    rw [hx]
    have : ∃ a b us, utf8 c = a :: b :: us := by
      unfold utf8
      rw [if_neg (by omega)]
      split
      · exact ⟨_, _, _, rfl⟩
      · split
        · exact ⟨_, _, _, rfl⟩
        · exact ⟨_, _, _, rfl⟩
    obtain ⟨a, b, us, h⟩ := this
    refine ⟨a, b, us ++ encodes .utf8 cps, by rw [h]; rfl, htail b (by rw [h]; simp)⟩
  obtain ⟨evs, h⟩ : ∃ evs, vscan (stdEnv .utf8 wide cfg loc old [.char]) [123, 125] (a :: b :: us) = some (.ok (b :: us), evs) := ⟨_, rfl⟩
  refine ⟨b :: us, evs, by rw [hu]; exact h, not_between (e := .utf8) (fun x hx => ?_) (trailing_cpLength8 hb)⟩
  · rcases List.mem_cons.1 hx with rfl | hx
    · exact hc
    · exact hs x hx

/-- The same of a `wchar_t` read from UTF-16, whenever the next character takes two units. -/
theorem C102_wchar_splits (wide : Enc) (cfg : RegexCfg) (loc : LocaleData) (old : Nat) (c : Nat) (hc : IsScalar c) (hn : 0x10000 ≤ c)
    (cps : List Nat) (hs : ∀ c ∈ cps, IsScalar c) :
    ∃ rest evs, vscan (stdEnv .utf16 wide cfg loc old [.wchar]) [123, 125] (encodes .utf16 (c :: cps)) = some (.ok rest, evs) ∧
      ¬ Between .utf16 (c :: cps) rest := by
  have hu : encodes .utf16 (c :: cps) = (0xD800 + (c - 0x10000) / 1024) :: (0xDC00 + (c - 0x10000) % 1024) :: encodes .utf16 cps := by
    rw [encodes_cons]
    show utf16 c ++ _ = _
    unfold utf16
    rw [if_neg (by omega)]
    rfl
  obtain ⟨evs, h⟩ : ∃ evs, vscan (stdEnv .utf16 wide cfg loc old [.wchar]) [123, 125]
      ((0xD800 + (c - 0x10000) / 1024) :: (0xDC00 + (c - 0x10000) % 1024) :: encodes .utf16 cps) =
        some (.ok ((0xDC00 + (c - 0x10000) % 1024) :: encodes .utf16 cps), evs) := ⟨_, rfl⟩
  refine ⟨_, evs, by rw [hu]; exact h, not_between (e := .utf16) (fun x hx => ?_) ?_⟩
  · rcases List.mem_cons.1 hx with rfl | hx
    · exact hc
    · exact hs x hx
  · show cpLength16 _ = 0
    unfold cpLength16
    have h1 : 0xffff &&& (0xDC00 + (c - 0x10000) % 1024) = 0xDC00 + (c - 0x10000) % 1024 := by
      rw [Nat.and_comm, show (0xffff : Nat) = 2 ^ 16 - 1 by decide, Nat.and_two_pow_sub_one_eq_mod]
      omega
    dsimp only
    rw [h1, if_neg (by omega), if_pos (by omega)]

/-- "é" into a `char`, and a smiley into a `wchar_t`. -/
example : IsScalar 233 ∧ IsScalar 0x1f600 := by unfold IsScalar; decide

end Scn
