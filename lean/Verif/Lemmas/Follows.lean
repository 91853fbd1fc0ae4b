import Verif.Lemmas.Simulate
/-
Two handlers driven by the same format string: as long as the first does not go wrong, the second follows it.
-/
namespace Scn
open Spec
variable {σ τ : Type}

/-- Callback-wise: related states step to related states, unless the first handler goes wrong (`B`), which it then stays. -/
structure Follows (H : Handler σ) (K : Handler τ) (R : σ → τ → Prop) (B : σ → Prop) (F : List Nat → Prop) : Prop where
  stays : Simulates H H B F
  lit : ∀ a b t a', R a b → (∀ u ∈ t, ∃ s, F s ∧ u ∈ s) → H.onLiteral a t = some a' → B a' ∨ ∃ b', K.onLiteral b t = some b' ∧ R a' b'
  auto : ∀ a b, R a b → R (H.onAutoId a).1 (K.onAutoId b).1 ∧ (H.onAutoId a).2 = (K.onAutoId b).2
  man : ∀ a b id, R a b → R (H.onManualId a id).1 (K.onManualId b id).1 ∧ (H.onManualId a id).2 = (K.onManualId b id).2
  field : ∀ a b id pos a', R a b → H.onField a id pos = some a' → B a' ∨ ∃ b', K.onField b id pos = some b' ∧ R a' b'
  specs : ∀ a b id pos a' p, R a b → F pos → H.onSpecs a id pos = some (a', p) →
    F p ∧ (B a' ∨ ∃ b', K.onSpecs b id pos = some (b', p) ∧ R a' b')
  err : ∀ a b, R a b → B (H.onError a)
  has : ∀ a b, R a b → H.hasError a = false ∧ K.hasError b = false

theorem parseArgId_follows {H : Handler σ} {K : Handler τ} {R : σ → τ → Prop} {B : σ → Prop} {F : List Nat → Prop} (S : Follows H K R B F)
    {a a' : σ} {b : τ} {s p : List Nat} {id : Nat} (hr : R a b) (hf : F s) (h : parseArgId H a s = some (a', id, p)) :
    F p ∧ (B a' ∨ ∃ b', parseArgId K b s = some (b', id, p) ∧ R a' b') := by
  have down := S.stays.down
  unfold parseArgId at h ⊢
  split at h
  · exact absurd h (by simp)
  · rename_i c cs
    dsimp only
    split at h
    · rename_i hc
      rw [if_pos hc]
      simp only [Option.some.injEq, Prod.mk.injEq] at h
      obtain ⟨rfl, rfl, rfl⟩ := h
      exact ⟨hf, Or.inr ⟨_, by rw [(S.auto a b hr).2], (S.auto a b hr).1⟩⟩
    · rename_i hc
      rw [if_neg hc]
      split at h
      · simp only [Option.some.injEq, Prod.mk.injEq] at h
        obtain ⟨rfl, rfl, rfl⟩ := h
        exact ⟨hf, Or.inl (S.err a b hr)⟩
      · rename_i hd
        rw [if_neg hd]
        dsimp only at h ⊢
        have hsuf : (if c ≠ 48 then simpleIntLoop 0 (c :: cs) else ((0 : Int), cs)).2 <:+ c :: cs := by
          split
          · exact simpleIntLoop_suffix _ _
          · exact List.suffix_cons _ _
        generalize (if c ≠ 48 then simpleIntLoop 0 (c :: cs) else ((0 : Int), cs)) = w at h hsuf
        obtain ⟨w1, w2⟩ := w
        have hw := down _ _ hf hsuf
        cases w2 with
        | nil =>
          simp only [Option.some.injEq, Prod.mk.injEq] at h
          obtain ⟨rfl, rfl, rfl⟩ := h
          exact ⟨hw, Or.inl (S.err a b hr)⟩
        | cons d ds =>
          dsimp only at h ⊢
          split at h
          · simp only [Option.some.injEq, Prod.mk.injEq] at h
            obtain ⟨rfl, rfl, rfl⟩ := h
            exact ⟨hw, Or.inl (S.err a b hr)⟩
          · rename_i hdd
            rw [if_neg hdd]
            simp only [Option.some.injEq, Prod.mk.injEq] at h
            obtain ⟨rfl, rfl, rfl⟩ := h
            exact ⟨hw, Or.inr ⟨_, by rw [(S.man a b _ hr).2], (S.man a b _ hr).1⟩⟩

theorem parseField_follows {H : Handler σ} {K : Handler τ} {R : σ → τ → Prop} {B : σ → Prop} {F : List Nat → Prop} (S : Follows H K R B F)
    {a a' : σ} {b : τ} {s p : List Nat} (hr : R a b) (hf : F s) (h : parseField H a s = some (a', p)) :
    F p ∧ (B a' ∨ ∃ b', parseField K b s = some (b', p) ∧ R a' b') := by
  have down := S.stays.down
  unfold parseField at h
  split at h
  · simp only [Option.some.injEq, Prod.mk.injEq] at h
    obtain ⟨rfl, rfl⟩ := h
    exact ⟨hf, Or.inl (S.err a b hr)⟩
  · simp only [Option.map_eq_some_iff, Prod.mk.injEq] at h
    obtain ⟨a1, h1, rfl, rfl⟩ := h
    refine ⟨down _ _ hf (List.suffix_cons _ _), ?_⟩
    simp only [parseField]
    obtain ⟨hr1, hid⟩ := S.auto a b hr
    rw [← hid]
    rcases S.field _ _ _ _ _ hr1 h1 with hB | ⟨b', hk, hr'⟩
    · exact Or.inl hB
    · exact Or.inr ⟨b', by rw [hk]; rfl, hr'⟩
  · rename_i rest
    simp only [Option.map_eq_some_iff, Prod.mk.injEq] at h
    obtain ⟨a1, h1, rfl, rfl⟩ := h
    refine ⟨down _ _ hf (List.suffix_cons _ _), ?_⟩
    simp only [parseField]
    rcases S.lit _ _ _ _ hr (fun u hu => ⟨_, hf, by rw [List.mem_singleton.1 hu]; simp⟩) h1 with hB | ⟨b', hk, hr'⟩
    · exact Or.inl hB
    · exact Or.inr ⟨b', by rw [hk]; rfl, hr'⟩
  · rename_i n1 n2 n3
    unfold parseField
    split
    · exact absurd rfl n1
    · exact absurd rfl (n2 _)
    · exact absurd rfl (n3 _)
    · split at h
      · exact absurd h (by simp)
      · rename_i a1 id q hid
        obtain ⟨hf1, hcase⟩ := parseArgId_follows S hr hf hid
        rcases hcase with hB | ⟨b1, hk, hr1⟩
        · -- wrong already
          split at h
          · simp only [Option.some.injEq, Prod.mk.injEq] at h
            obtain ⟨rfl, rfl⟩ := h
            exact ⟨hf1, Or.inl (S.stays.err _ hB).2⟩
          · simp only [Option.map_eq_some_iff, Prod.mk.injEq] at h
            obtain ⟨a2, h2, rfl, rfl⟩ := h
            exact ⟨down _ _ hf1 (List.suffix_cons _ _), Or.inl (S.stays.field _ _ _ _ hB h2).2⟩
          · simp only [Option.some.injEq, Prod.mk.injEq] at h
            obtain ⟨rfl, rfl⟩ := h
            exact ⟨hf1, Or.inl (S.stays.err _ hB).2⟩
          · rename_i w hw
            split at h
            · exact absurd h (by simp)
            · rename_i a2 p2 h2
              obtain ⟨_, hq2, hf2⟩ := S.stays.specs _ _ _ _ _ hB (down _ _ hf1 (List.suffix_cons _ _)) h2
              split at h
              · simp only [Option.some.injEq, Prod.mk.injEq] at h
                obtain ⟨rfl, rfl⟩ := h
                exact ⟨down _ _ hf2 (List.suffix_cons _ _), Or.inl hq2⟩
              · simp only [Option.some.injEq, Prod.mk.injEq] at h
                obtain ⟨rfl, rfl⟩ := h
                exact ⟨hf2, Or.inl (S.stays.err _ hq2).2⟩
          · simp only [Option.some.injEq, Prod.mk.injEq] at h
            obtain ⟨rfl, rfl⟩ := h
            exact ⟨hf1, Or.inl (S.stays.err _ hB).2⟩
        · rw [hk]
          dsimp only
          split at h
          · simp only [Option.some.injEq, Prod.mk.injEq] at h
            obtain ⟨rfl, rfl⟩ := h
            exact ⟨hf1, Or.inl (S.err _ _ hr1)⟩
          · simp only [Option.map_eq_some_iff, Prod.mk.injEq] at h
            obtain ⟨a2, h2, rfl, rfl⟩ := h
            refine ⟨down _ _ hf1 (List.suffix_cons _ _), ?_⟩
            rcases S.field _ _ _ _ _ hr1 h2 with hB | ⟨b2, hk2, hr2⟩
            · exact Or.inl hB
            · exact Or.inr ⟨b2, by rw [hk2]; rfl, hr2⟩
          · simp only [Option.some.injEq, Prod.mk.injEq] at h
            obtain ⟨rfl, rfl⟩ := h
            exact ⟨hf1, Or.inl (S.err _ _ hr1)⟩
          · rename_i w hw
            split at h
            · exact absurd h (by simp)
            · rename_i a2 p2 h2
              obtain ⟨hf2, hcase⟩ := S.specs _ _ _ _ _ _ hr1 (down _ _ hf1 (List.suffix_cons _ _)) h2
              rcases hcase with hB | ⟨b2, hk2, hr2⟩
              · split at h
                · simp only [Option.some.injEq, Prod.mk.injEq] at h
                  obtain ⟨rfl, rfl⟩ := h
                  exact ⟨down _ _ hf2 (List.suffix_cons _ _), Or.inl hB⟩
                · simp only [Option.some.injEq, Prod.mk.injEq] at h
                  obtain ⟨rfl, rfl⟩ := h
                  exact ⟨hf2, Or.inl (S.stays.err _ hB).2⟩
              · rw [hk2]
                dsimp only
                split at h
                · simp only [Option.some.injEq, Prod.mk.injEq] at h
                  obtain ⟨rfl, rfl⟩ := h
                  exact ⟨down _ _ hf2 (List.suffix_cons _ _), Or.inr ⟨b2, rfl, hr2⟩⟩
                · simp only [Option.some.injEq, Prod.mk.injEq] at h
                  obtain ⟨rfl, rfl⟩ := h
                  exact ⟨hf2, Or.inl (S.err _ _ hr2)⟩
          · rename_i m1 m2 m3 m4
            simp only [Option.some.injEq, Prod.mk.injEq] at h
            obtain ⟨rfl, rfl⟩ := h
            exact ⟨hf1, Or.inl (S.err _ _ hr1)⟩

theorem parseLoop_follows {H : Handler σ} {K : Handler τ} {R : σ → τ → Prop} {B : σ → Prop} {F : List Nat → Prop} (S : Follows H K R B F) :
    ∀ (n : Nat) (a a' : σ) (b : τ) (s : List Nat), R a b → F s → parseLoop H n a s = some a' →
      B a' ∨ ∃ b', parseLoop K n b s = some b' ∧ R a' b' := by
  have down := S.stays.down
  intro n
  induction n with
  | zero => intro a a' b s _ _ h; simp [parseLoop] at h
  | succ n ih =>
    intro a a' b s hr hf h
    unfold parseLoop at h ⊢
    dsimp only at h ⊢
    have hsuf : s.dropWhile (fun c => ! isBrace c) <:+ s := List.dropWhile_suffix _
    have hlit : ∀ u ∈ s.takeWhile (fun c => ! isBrace c), ∃ s, F s ∧ u ∈ s := fun u hu => ⟨s, hf, (List.takeWhile_prefix _).subset hu⟩
    split at h
    · exact S.lit _ _ _ _ hr hlit h
    · rename_i c cs hd
      rw [hd] at hsuf
      have hcs : F cs := down _ _ hf ((List.suffix_cons _ _).trans hsuf)
      split at h
      · rename_i hc
        rw [if_pos hc]
        split at h
        · exact absurd h (by simp)
        · rename_i a1 h1
          split at h
          · exact absurd h (by simp)
          · rename_i a2 s2 h2
            rcases S.lit _ _ _ _ hr hlit h1 with hB | ⟨b1, hk1, hr1⟩
            · obtain ⟨_, hq2, hf2⟩ := parseField_simulate S.stays hB hcs h2
              left
              split at h
              · cases h; exact hq2
              · exact (parseLoop_simulate S.stays _ _ _ _ hq2 hf2 h).2
            · rw [hk1]
              dsimp only
              obtain ⟨hf2, hcase⟩ := parseField_follows S hr1 hcs h2
              rcases hcase with hB | ⟨b2, hk2, hr2⟩
              · left
                split at h
                · cases h; exact hB
                · exact (parseLoop_simulate S.stays _ _ _ _ hB hf2 h).2
              · rw [hk2]
                dsimp only
                rw [(S.has _ _ hr2).2]
                rw [(S.has _ _ hr2).1] at h
                exact ih _ _ _ _ hr2 hf2 h
      · rename_i hc
        rw [if_neg hc]
        split at h
        · rename_i rest
          split at h
          · exact absurd h (by simp)
          · rename_i a1 h1
            have hrest : F rest := down _ _ hcs (List.suffix_cons _ _)
            have hlit2 : ∀ u ∈ s.takeWhile (fun c => ! isBrace c) ++ [125], ∃ s, F s ∧ u ∈ s := by
              intro u hu
              rcases List.mem_append.1 hu with hu | hu
              · exact hlit u hu
              · exact ⟨_, hcs, by rw [List.mem_singleton.1 hu]; simp⟩
            rcases S.lit _ _ _ _ hr hlit2 h1 with hB | ⟨b1, hk1, hr1⟩
            · exact Or.inl (parseLoop_simulate S.stays _ _ _ _ hB hrest h).2
            · rw [hk1]
              exact ih _ _ _ _ hr1 hrest h
        · cases h
          exact Or.inl (S.err a b hr)

end Scn
