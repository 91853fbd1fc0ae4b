import Verif.Props.LetterCase
import Verif.Props.LeadingZeros
import Verif.Props.MinusSign
/-
C116 and C117 for whole fields: the number is behind whitespace that is skipped, in any encoding.
-/
namespace Scn
open Spec

theorem unsigned_head {e : Enc} {c : Nat} {cs : List Nat} (hs : ∀ x ∈ c :: cs, IsScalar x) (hc : c ≠ 43 ∧ c ≠ 45) :
    ∃ u t, encodes e (c :: cs) = u :: t ∧ u ≠ 43 ∧ u ≠ 45 := by
  cases h : encodes e (c :: cs) with
  | nil => exact absurd ((encodes_eq_nil e _).1 h) (by simp)
  | cons u t =>
    refine ⟨u, t, rfl, ?_, ?_⟩ <;> rintro rfl <;> obtain ⟨cps', h1, _⟩ := encodes_ascii_head hs h (by decide)
    · exact hc.1 (List.cons.inj h1).1
    · exact hc.2 (List.cons.inj h1).1

theorem encodes_sign {e : Enc} {c : Nat} (hc : c < 128) (cs : List Nat) : encodes e (c :: cs) = c :: encodes e cs := by
  rw [encodes_cons, encode_ascii e c hc]; rfl

/-- A field that skips whitespace reads what is behind it. -/
theorem field_behind_spaces {e : Enc} {rd : Reader Val} (h : rd.skipWs = true) {sp : List Nat} (hsp : ∀ x ∈ sp, IsScalar x ∧ isSpace x = true) {c : Nat}
    {cs : List Nat} (hs : ∀ x ∈ c :: cs, IsScalar x) (hc : isSpace c = false) :
    defaultRead e rd (fun _ => .contiguous) (encodes e (sp ++ c :: cs)) = rd.read .contiguous (encodes e (c :: cs)) := by
  rw [defaultRead_afterSpaces h fun x hx => (List.mem_append.1 hx).elim (fun hx => (hsp x hx).1) (hs x)]
  have hd : (sp ++ c :: cs).dropWhile isSpace = c :: cs := by
    induction sp with
    | nil => simp [hc]
    | cons a sp ih =>
      rw [List.cons_append, List.dropWhile_cons, if_pos (hsp a (by simp)).2]
      exact ih fun x hx => hsp x (List.mem_cons_of_mem _ hx)
  unfold afterSpaces
  rw [hd, if_neg (by simp)]

/-- C116 for fields without a specification: behind any whitespace, in any encoding, a plus sign makes no difference to an integer or a floating-point
    number, whatever text without a sign follows. -/
theorem C116_field_plus {e wide : Enc} {d : Dest} (hd : (∃ T ty, d = .int T ty) ∨ ∃ ty cv seg, d = .float ty cv seg) {sp : List Nat}
    (hsp : ∀ x ∈ sp, IsScalar x ∧ isSpace x = true) {c : Nat} {cs : List Nat} (hs : ∀ x ∈ c :: cs, IsScalar x) (hc : c ≠ 43 ∧ c ≠ 45) (hw : isSpace c = false) :
    defaultRead e (d.defaultReader e wide) (fun _ => .contiguous) (encodes e (sp ++ 43 :: c :: cs)) =
      defaultRead e (d.defaultReader e wide) (fun _ => .contiguous) (encodes e (sp ++ c :: cs)) := by
  have hsk : (d.defaultReader e wide).skipWs = true := by
    rcases hd with ⟨T, ty, rfl⟩ | ⟨ty, cv, seg, rfl⟩ <;> rfl
  have hs' : ∀ x ∈ 43 :: c :: cs, IsScalar x := fun x hx => (List.mem_cons.1 hx).elim (fun h => by subst h; decide) (hs x)
  rw [field_behind_spaces hsk hsp hs' (by decide), field_behind_spaces hsk hsp hs hw, encodes_sign (by decide)]
  obtain ⟨u, t, h1, h2⟩ := unsigned_head (e := e) hs hc
  rw [h1]
  rcases hd with ⟨T, ty, rfl⟩ | ⟨ty, cv, seg, rfl⟩
  · exact congrArg (Res.map _) (C116_plus (srcOf e .contiguous) T ⟨10, false, none⟩ h2)
  · exact congrArg (Res.map _) (C116_plus_float cv e (srcOf e .contiguous) seg .none h2)

/-- " +5€" and " 5€" in UTF-8. -/
example : (∀ x ∈ [32], IsScalar x ∧ isSpace x = true) ∧ (∀ x ∈ [53, 0x20AC], IsScalar x) ∧ isSpace 53 = false ∧
    defaultRead .utf8 ((Dest.int ⟨32, true⟩ .int).defaultReader .utf8 .utf32) (fun _ => .contiguous) [32, 43, 53, 0xE2, 0x82, 0xAC] =
      .ok (.int 5, [0xE2, 0x82, 0xAC]) := by
  refine ⟨by unfold IsScalar; decide, by unfold IsScalar; decide, by decide, by decide +kernel⟩

/-- C116 for fields without a specification, leading zeros: behind any whitespace, with any sign or none, in any encoding, any number of zeros in front of a
    decimal digit makes no difference, whatever follows. -/
theorem C116_field_zeros {e wide : Enc} {T : IntTy} (hT : T.Std) (ty : ArgTy) {sp : List Nat} (hsp : ∀ x ∈ sp, IsScalar x ∧ isSpace x = true) {sg : List Nat}
    (hsg : SignText sg) (n : Nat) {d : Nat} (hd : 48 ≤ d ∧ d ≤ 57) {r : List Nat} (hr : ∀ x ∈ r, IsScalar x) :
    defaultRead e ((Dest.int T ty).defaultReader e wide) (fun _ => .contiguous) (encodes e (sp ++ (sg ++ List.replicate n 48 ++ d :: r))) =
      defaultRead e ((Dest.int T ty).defaultReader e wide) (fun _ => .contiguous) (encodes e (sp ++ (sg ++ d :: r))) := by
  have key : ∀ m, defaultRead e ((Dest.int T ty).defaultReader e wide) (fun _ => .contiguous) (encodes e (sp ++ (sg ++ List.replicate m 48 ++ d :: r))) =
      (readInt (srcOf e .contiguous) T ⟨10, false, none⟩ (sg ++ List.replicate m 48 ++ d :: encodes e r)).map fun p => (.int p.1, p.2) := by
    intro m
    have hpre : ∀ x ∈ sg ++ List.replicate m 48 ++ [d], x < 128 ∧ isSpace x = false := by
      intro x hx
      rcases List.mem_append.1 hx with hx | hx
      · rcases List.mem_append.1 hx with hx | hx
        · rcases hsg with rfl | rfl | rfl
          · cases hx
          · rw [List.mem_singleton.1 hx]; decide
          · rw [List.mem_singleton.1 hx]; decide
        · rw [List.eq_of_mem_replicate hx]; decide
      · rw [List.mem_singleton.1 hx]
        have : ∀ y, y < 58 → 48 ≤ y → y < 128 ∧ isSpace y = false := by decide
        exact this d (by omega) hd.1
    have heq : sg ++ List.replicate m 48 ++ d :: r = (sg ++ List.replicate m 48 ++ [d]) ++ r := by simp
    have heq' : sg ++ List.replicate m 48 ++ d :: encodes e r = (sg ++ List.replicate m 48 ++ [d]) ++ encodes e r := by simp
    rw [heq, heq']
    generalize hp : sg ++ List.replicate m 48 ++ [d] = p at hpre
    cases p with
    | nil => simp at hp
    | cons a p =>
      have hs : ∀ x ∈ a :: (p ++ r), IsScalar x := fun x hx => by
        rcases List.mem_append.1 (show x ∈ (a :: p) ++ r from hx) with hx | hx
        · have := (hpre x hx).1
          exact ⟨by omega, by omega⟩
        · exact hr x hx
      rw [List.cons_append, field_behind_spaces rfl hsp hs (hpre a (by simp)).2, ← List.cons_append, encodes_append,
        encodes_asciis e (a :: p) fun x hx => (hpre x hx).1]
      rfl
  have h0 := key 0
  rw [List.replicate_zero, List.append_nil] at h0
  rw [key n, h0]
  have hz := C116_leading_zeros (srcOf e .contiguous) hT (b := 10) (by decide) false hsg n (d := d) (r := encodes e r)
    ⟨d - 48, by simp [digit?, hd], by omega⟩ ?_ ?_
  · rw [hz]
  · rintro p x y ⟨⟩
  · intro hn
    have he := utf8_units hn
    subst he
    exact utf8s_bytes _ hr

/-- " -005€" and " -5€" in UTF-8. -/
example : (⟨32, true⟩ : IntTy).Std ∧ (∀ x ∈ [32], IsScalar x ∧ isSpace x = true) ∧ SignText [45] ∧ (∀ x ∈ [0x20AC], IsScalar x) ∧
    defaultRead .utf8 ((Dest.int ⟨32, true⟩ .int).defaultReader .utf8 .utf32) (fun _ => .contiguous) [32, 45, 48, 48, 53, 0xE2, 0x82, 0xAC] =
      .ok (.int (-5), [0xE2, 0x82, 0xAC]) := by
  refine ⟨by unfold IntTy.Std; decide, by unfold IsScalar; decide, Or.inr (Or.inr rfl), by unfold IsScalar; decide, by decide +kernel⟩

/-- C117 for fields without a specification: behind any whitespace, in any encoding, if a text without a sign is read as a number of a signed type, then with
    a minus sign in front of it as the opposite number, and the same is left. -/
theorem C117_field {e wide : Enc} {T : IntTy} (hT : T.Std) (hsn : T.signed = true) (ty : ArgTy) {sp : List Nat} (hsp : ∀ x ∈ sp, IsScalar x ∧ isSpace x = true)
    {c : Nat} {cs : List Nat} (hs : ∀ x ∈ c :: cs, IsScalar x) (hc : c ≠ 43 ∧ c ≠ 45) (hw : isSpace c = false) {x : Int} {r : List Nat}
    (h : defaultRead e ((Dest.int T ty).defaultReader e wide) (fun _ => .contiguous) (encodes e (sp ++ c :: cs)) = .ok (.int x, r)) :
    defaultRead e ((Dest.int T ty).defaultReader e wide) (fun _ => .contiguous) (encodes e (sp ++ 45 :: c :: cs)) = .ok (.int (-x), r) := by
  have hs' : ∀ x ∈ 45 :: c :: cs, IsScalar x := fun x hx => (List.mem_cons.1 hx).elim (fun h => by subst h; decide) (hs x)
  rw [field_behind_spaces rfl hsp hs hw] at h
  rw [field_behind_spaces rfl hsp hs' (by decide), encodes_sign (by decide)]
  have hb : (srcOf e .contiguous).narrow = true → ∀ y ∈ encodes e (c :: cs), y < 256 := fun hn => by
    have he := utf8_units hn
    subst he
    exact utf8s_bytes _ hs
  obtain ⟨u, t, h1, h2⟩ := unsigned_head (e := e) hs hc
  rw [h1] at h hb ⊢
  have ho := C117_opposite (srcOf e .contiguous) hT hsn (sp := ⟨10, false, none⟩) rfl h2 hb
  replace h : (readInt (srcOf e .contiguous) T ⟨10, false, none⟩ (u :: t)).map (fun p => (Val.int p.1, p.2)) = .ok (.int x, r) := h
  show (readInt (srcOf e .contiguous) T ⟨10, false, none⟩ (45 :: u :: t)).map (fun p => (Val.int p.1, p.2)) = _
  cases hp : readInt (srcOf e .contiguous) T ⟨10, false, none⟩ (u :: t) with
  | ok p =>
    rw [hp] at h ho
    have ho : readInt (srcOf e .contiguous) T ⟨10, false, none⟩ (45 :: u :: t) = Res.ok (-p.1, p.2) := ho
    rw [ho]
    cases h
    rfl
  | err y => rw [hp] at h; cases h
  | ub => rw [hp] at h; cases h

/-- " 5€" and " -5€" in UTF-16. -/
example : (⟨32, true⟩ : IntTy).Std ∧ (∀ x ∈ [32], IsScalar x ∧ isSpace x = true) ∧ (∀ x ∈ [53, 0x20AC], IsScalar x) ∧ isSpace 53 = false ∧
    defaultRead .utf16 ((Dest.int ⟨32, true⟩ .int).defaultReader .utf16 .utf16) (fun _ => .contiguous) [32, 53, 0x20AC] = .ok (.int 5, [0x20AC]) ∧
    defaultRead .utf16 ((Dest.int ⟨32, true⟩ .int).defaultReader .utf16 .utf16) (fun _ => .contiguous) [32, 45, 53, 0x20AC] = .ok (.int (-5), [0x20AC]) := by
  refine ⟨by unfold IntTy.Std; decide, by unfold IsScalar; decide, by unfold IsScalar; decide, by decide, by decide +kernel, by decide +kernel⟩

end Scn
