import Verif.Lemmas.Sequence
import Verif.Lemmas.Fields2
import Verif.Lemmas.Literal
import Verif.Model.Readers
/-
Words read by default string fields.
-/
namespace Scn
open Spec

theorem matchText_spaces (t : List Nat) (ht : ∀ c ∈ t, isSpace c = true) (s : List Nat) :
    matchText t s = some (if t = [] then s else s.dropWhile isSpace) := by
  induction t generalizing s with
  | nil => simp [matchText]
  | cons c t ih =>
    have h1 : matchText (c :: t) s = matchText t (s.dropWhile isSpace) := by
      cases s <;> simp [matchText, ht c (by simp)]
    rw [h1, ih (fun c h => ht c (by simp [h]))]
    rw [if_neg (List.cons_ne_nil _ _)]
    split
    · rfl
    · congr 1
      have hd : ∀ l : List Nat, (l.dropWhile isSpace).dropWhile isSpace = l.dropWhile isSpace := by
        intro l
        induction l with
        | nil => rfl
        | cons a l ih => rw [List.dropWhile_cons]; split
                         · exact ih
                         · rename_i h; rw [List.dropWhile_cons, if_neg h]
      exact hd s

theorem stdEnv_skips (e wide : Enc) (cfg : RegexCfg) (loc : LocaleData) (old : Nat) (ds : List Dest) :
    ∀ cps : List Nat, (∀ cp ∈ cps, IsScalar cp) →
      (stdEnv e wide cfg loc old ds).skip (encodes (stdEnv e wide cfg loc old ds).enc cps) =
        some (encodes (stdEnv e wide cfg loc old ds).enc (cps.dropWhile isSpace)) := by
  intro cps h
  exact readWhileSpace_encodes e .contiguous cps h (by cases e <;> trivial)

theorem litStep_spaces (e wide : Enc) (cfg : RegexCfg) (loc : LocaleData) (old : Nat) (ds : List Dest)
    (t s : List Nat) (ht : ∀ c ∈ t, IsScalar c ∧ isSpace c = true) (hs : ∀ c ∈ s, IsScalar c)
    (hne : s.dropWhile isSpace ≠ []) :
    litStep (stdEnv e wide cfg loc old ds) (encodes e t) (encodes e s) =
      .ok (encodes e (if t = [] then s else s.dropWhile isSpace)) := by
  obtain ⟨r, f, h1, _, _, h3, h4⟩ := litLoop_spec (stdEnv e wide cfg loc old ds) (stdEnv_skips e wide cfg loc old ds)
    (encodes e t).length t s (fun c h => ⟨(ht c h).1, Or.inl (ht c h).2⟩) hs (Nat.le_refl _)
  have hm := matchText_spaces t (fun c h => (ht c h).2) s
  have hf := h4 _ hm (Or.inl (by
    split
    · intro h; rw [h] at hne; simp at hne
    · exact hne))
  have := h3 hf
  rw [hm] at this
  simp only [Option.some.injEq] at this
  subst hf
  unfold litStep
  have h1' : litLoop (stdEnv e wide cfg loc old ds) (encodes e t).length (encodes e s) (encodes e t) = some (encodes e r, none) := h1
  rw [h1', ← this]

theorem dropWhile_stop {α : Type} (p : α → Bool) (a b : List α) (ha : ∀ x ∈ a, p x = true) (hb : b = [] ∨ ∃ x t, b = x :: t ∧ p x = false) :
    (a ++ b).dropWhile p = b := by
  induction a with
  | nil =>
    rcases hb with rfl | ⟨x, t, rfl, h⟩
    · rfl
    · rw [List.nil_append, List.dropWhile_cons, if_neg (by simp [h])]
  | cons x a ih =>
    rw [List.cons_append, List.dropWhile_cons, if_pos (ha x (by simp))]
    exact ih fun x h => ha x (by simp [h])

/-- A default string field at a word. -/
theorem defaultRead_word (e wide : Enc) (sep word tail : List Nat) (hsep : ∀ c ∈ sep, IsScalar c ∧ isSpace c = true)
    (hw : ∀ c ∈ word, IsScalar c ∧ isSpace c = false) (hne : word ≠ []) (ht : ∀ c ∈ tail, IsScalar c) (hb : Breaks tail) :
    defaultRead e ((Dest.string e).defaultReader e wide) (fun _ => .contiguous) (encodes e (sep ++ (word ++ tail))) =
      .ok (.string (encodes e word), encodes e tail) := by
  obtain ⟨w, ws, rfl⟩ : ∃ w ws, word = w :: ws := by cases word with | nil => exact absurd rfl hne | cons w ws => exact ⟨w, ws, rfl⟩
  have hgl : ∀ cps, GoodLayout e .contiguous cps := by intro cps; cases e <;> trivial
  have hall : ∀ c ∈ (w :: ws) ++ tail, IsScalar c := by
    intro c hc
    rcases List.mem_append.1 hc with h | h
    · exact (hw c h).1
    · exact ht c h
  have hall2 : ∀ c ∈ sep ++ ((w :: ws) ++ tail), IsScalar c := by
    intro c hc
    rcases List.mem_append.1 hc with h | h
    · exact (hsep c h).1
    · exact hall c h
  have hdrop : (sep ++ ((w :: ws) ++ tail)).dropWhile isSpace = (w :: ws) ++ tail :=
    dropWhile_stop _ _ _ (fun c h => (hsep c h).2) (Or.inr ⟨w, ws ++ tail, rfl, (hw w (by simp)).2⟩)
  unfold defaultRead
  rw [if_neg (by rw [encodes_eq_nil]; simp), if_pos (show ((Dest.string e).defaultReader e wide).skipWs = true from rfl), skipSpace_encodes e _ _ hall2 (hgl _), if_neg, Res.bind_ok, hdrop]
  · show (readWord e e .contiguous _).map _ = _
    unfold readWord
    rw [readUntilSpace_encodes e _ _ hall (hgl _), dropWhile_stop _ _ _ (fun c h => by rw [(hw c h).2]; rfl)]
    · dsimp only
      rw [readString_encodes e _ _ (fun c h => (hw c h).1)]
      rfl
    · rcases hb with rfl | ⟨c, t, rfl, h⟩
      · exact Or.inl rfl
      · exact Or.inr ⟨c, t, rfl, by rw [h]; rfl⟩
  · rintro ⟨_, h⟩
    rw [← dropWhile_nil_iff, hdrop] at h
    simp at h

theorem words_run (e wide : Enc) (cfg : RegexCfg) (loc : LocaleData) (old n : Nat) (ws : List Word) (rest : List Nat)
    (hr : ∀ c ∈ rest, IsScalar c) (hb : Breaks rest) :
    ∀ i, i + ws.length = n → (∀ w ∈ ws, w.Ok) → (∀ w ∈ ws.tail, w.sep ≠ []) →
      leftToRight (litStep (stdEnv e wide cfg loc old (List.replicate n (.string e))))
        (stdEnv e wide cfg loc old (List.replicate n (.string e))).readDefault i (ws.map fun w => encodes e w.gap) []
        (encodes e (wordsSource ws rest)) =
      .ok (ws.map fun w => .string (encodes e w.text), encodes e rest) := by
  induction ws with
  | nil => intro i _ _ _; simp [leftToRight, litStep_nil, wordsSource]
  | cons w ws ih =>
    intro i hi hok hsep
    have hw := hok w (by simp)
    have htail : wordsSource (w :: ws) rest = w.sep ++ (w.text ++ wordsSource ws rest) := by simp [wordsSource]
    have hbt : Breaks (wordsSource ws rest) := by
      cases ws with
      | nil => simpa [wordsSource] using hb
      | cons w2 ws2 =>
        refine Or.inr ?_
        have h2 := hsep w2 (by simp)
        have h3 := hok w2 (by simp)
        cases hs : w2.sep with
        | nil => exact absurd hs h2
        | cons c t => exact ⟨c, t ++ (w2.text ++ wordsSource ws2 rest), by simp [wordsSource, hs], (h3.sep c (by simp [hs])).2⟩
    have hsc : ∀ c ∈ wordsSource ws rest, IsScalar c := by
      intro c hc
      rcases List.mem_append.1 hc with h | h
      · obtain ⟨w', hw', h⟩ := List.mem_flatMap.1 h
        have := hok w' (by simp [hw'])
        rcases List.mem_append.1 h with h | h
        · exact (this.sep c h).1
        · exact (this.text c h).1
      · exact hr c h
    obtain ⟨x, xs, hx⟩ : ∃ x xs, w.text = x :: xs := by
      cases h : w.text with | nil => exact absurd h hw.ne | cons x xs => exact ⟨x, xs, rfl⟩
    have hall : ∀ c ∈ wordsSource (w :: ws) rest, IsScalar c := by
      rw [htail]
      intro c hc
      rcases List.mem_append.1 hc with h | h
      · exact (hw.sep c h).1
      · rcases List.mem_append.1 h with h | h
        · exact (hw.text c h).1
        · exact hsc c h
    have hdrop : (wordsSource (w :: ws) rest).dropWhile isSpace = w.text ++ wordsSource ws rest := by
      rw [htail]
      exact dropWhile_stop _ _ _ (fun c h => (hw.sep c h).2)
        (Or.inr ⟨x, xs ++ wordsSource ws rest, by simp [hx], (hw.text x (by simp [hx])).2⟩)
    simp only [List.map_cons, leftToRight]
    rw [litStep_spaces e wide cfg loc old _ _ _ hw.gap hall (by rw [hdrop]; simp [hx]), Res.bind_ok]
    have hrd : ∀ sep, (∀ c ∈ sep, IsScalar c ∧ isSpace c = true) →
        (stdEnv e wide cfg loc old (List.replicate n (.string e))).readDefault i (encodes e (sep ++ (w.text ++ wordsSource ws rest))) =
          .ok (.string (encodes e w.text), encodes e (wordsSource ws rest)) := by
      intro sep hs
      have hget : (List.replicate n (Dest.string e))[i]? = some (.string e) := by
        rw [List.getElem?_replicate, if_pos (by rw [← hi, List.length_cons]; omega)]
      show (match (List.replicate n (Dest.string e))[i]? with | none => _ | some d => _) = _
      rw [hget]
      exact defaultRead_word e wide sep w.text _ hs hw.text hw.ne hsc hbt
    have hstep : (stdEnv e wide cfg loc old (List.replicate n (.string e))).readDefault i
        (encodes e (if w.gap = [] then wordsSource (w :: ws) rest else (wordsSource (w :: ws) rest).dropWhile isSpace)) =
          .ok (.string (encodes e w.text), encodes e (wordsSource ws rest)) := by
      split
      · rw [htail]; exact hrd _ hw.sep
      · rw [hdrop]; exact hrd [] (by simp)
    rw [hstep, Res.bind_ok]
    dsimp only
    rw [ih (i + 1) (by rw [← hi, List.length_cons]; omega) (fun w' h => hok w' (by simp [h]))
      (fun w' h => hsep w' (by rw [List.tail_cons]; exact List.mem_of_mem_tail h)), Res.map_ok]

end Scn
