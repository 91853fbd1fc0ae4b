import Verif.Model.CLocale
/-
Property C98: numbers are read in the classic C locale, and the locale of the program is left as it was.
-/
namespace Scn

/-- C98. A conversion runs in the locale `C`, and afterwards the locale is what it was. -/
theorem C98_restored_partial {A : Type} (exists_ : List Nat → Bool) (run : List Nat → A) (cur : List Nat) (hC : exists_ [67] = true) (hcur : exists_ cur = true)
    (hz : 0 ∉ cur) (hlen : cur.length ≤ 63) : withClassicLocale exists_ run cur = some (run [67], cur) := by
  have hnz : cur.takeWhile (· != 0) = cur := by
    have : ∀ l : List Nat, 0 ∉ l → l.takeWhile (· != 0) = l := by
      intro l
      induction l with
      | nil => intro _; rfl
      | cons c l ih =>
        intro h
        simp only [List.mem_cons, not_or] at h
        rw [List.takeWhile_cons, if_pos (by simp; omega), ih h.2]
    exact this cur hz
  have hbuf : (cur ++ List.replicate (64 - cur.length) 0).takeWhile (· != 0) = cur := by
    rw [List.takeWhile_append, hnz, if_pos rfl]
    obtain ⟨k, hk⟩ : ∃ k, 64 - cur.length = k + 1 := ⟨63 - cur.length, by omega⟩
    rw [hk, List.replicate_succ, List.takeWhile_cons, if_neg (by simp), List.append_nil]
  unfold withClassicLocale localeBuffer setLocale
  rw [if_pos (show cur.length < 64 by omega)]
  simp only [Option.map_some, hbuf, hcur, if_true]
  rw [show [67].takeWhile (· != 0) = [67] from rfl, if_pos hC]

/-- C98 fails for locales with names of 64 characters or more: they are copied beyond the end of the buffer. -/
theorem C98_violated_long {A : Type} (exists_ : List Nat → Bool) (run : List Nat → A) (cur : List Nat) (hlen : 64 ≤ cur.length) :
    withClassicLocale exists_ run cur = none := by
  unfold withClassicLocale localeBuffer
  rw [if_neg (by omega)]; rfl

/-- The locale `de_DE`, whose decimal point is a comma; the conversion tells the locale it is called in. -/
example : withClassicLocale (fun _ => true) id [100, 101, 95, 68, 69] = some ([67], [100, 101, 95, 68, 69]) :=
  C98_restored_partial _ _ _ rfl rfl (by decide) (by decide)

/-- A locale that is given by the path of its files may have a long name. -/
example : withClassicLocale (fun _ => true) id (List.replicate 64 97) = none := C98_violated_long _ _ _ (by decide)

end Scn
