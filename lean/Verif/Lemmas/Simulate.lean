import Verif.Lemmas.Lockstep
import Verif.Lemmas.Advance
/-
Two handlers on the same states: where one of them is defined, the other does the same; applied to the run-time handler
over two environments whose readers agree.
-/
namespace Scn
open Spec
variable {V : Type} {σ : Type}

/-- Callback-wise: on the states of `Q` and the format positions of `F`, whatever `H` does `K` does too. -/
structure Simulates (H K : Handler σ) (Q : σ → Prop) (F : List Nat → Prop) : Prop where
  down : ∀ s t, F s → t <:+ s → F t
  lit : ∀ a t a', Q a → (∀ u ∈ t, ∃ s, F s ∧ u ∈ s) → H.onLiteral a t = some a' → K.onLiteral a t = some a' ∧ Q a'
  auto : ∀ a, Q a → K.onAutoId a = H.onAutoId a ∧ Q (H.onAutoId a).1
  man : ∀ a id, Q a → K.onManualId a id = H.onManualId a id ∧ Q (H.onManualId a id).1
  field : ∀ a id pos a', Q a → H.onField a id pos = some a' → K.onField a id pos = some a' ∧ Q a'
  specs : ∀ a id pos a' p, Q a → F pos → H.onSpecs a id pos = some (a', p) → K.onSpecs a id pos = some (a', p) ∧ Q a' ∧ F p
  err : ∀ a, Q a → K.onError a = H.onError a ∧ Q (H.onError a)
  has : ∀ a, K.hasError a = H.hasError a

theorem parseArgId_simulate {H K : Handler σ} {Q : σ → Prop} {F : List Nat → Prop} (S : Simulates H K Q F)
    {a a' : σ} {s p : List Nat} {id : Nat} (hq : Q a) (hf : F s) (h : parseArgId H a s = some (a', id, p)) :
    parseArgId K a s = some (a', id, p) ∧ Q a' ∧ F p := by
  unfold parseArgId at h ⊢
  split at h
  · exact absurd h (by simp)
  · rename_i c cs
    dsimp only
    split at h
    · rename_i hc
      rw [if_pos hc, (S.auto a hq).1]
      simp only [Option.some.injEq, Prod.mk.injEq] at h
      obtain ⟨rfl, rfl, rfl⟩ := h
      exact ⟨rfl, (S.auto a hq).2, hf⟩
    · rename_i hc
      rw [if_neg hc]
      split at h
      · rename_i hd
        rw [if_pos hd, (S.err a hq).1]
        simp only [Option.some.injEq, Prod.mk.injEq] at h
        obtain ⟨rfl, rfl, rfl⟩ := h
        exact ⟨rfl, (S.err a hq).2, hf⟩
      · rename_i hd
        rw [if_neg hd]
        dsimp only at h ⊢
        have hsuf : (if c ≠ 48 then simpleIntLoop 0 (c :: cs) else ((0 : Int), cs)).2 <:+ c :: cs := by
          split
          · exact simpleIntLoop_suffix _ _
          · exact List.suffix_cons _ _
        generalize (if c ≠ 48 then simpleIntLoop 0 (c :: cs) else ((0 : Int), cs)) = w at h hsuf
        obtain ⟨w1, w2⟩ := w
        have hw := S.down _ _ hf hsuf
        cases w2 with
        | nil =>
          dsimp only at h ⊢
          rw [(S.err a hq).1]
          simp only [Option.some.injEq, Prod.mk.injEq] at h
          obtain ⟨rfl, rfl, rfl⟩ := h
          exact ⟨rfl, (S.err a hq).2, hw⟩
        | cons d ds =>
          dsimp only at h ⊢
          split at h
          · rename_i hdd
            rw [if_pos hdd, (S.err a hq).1]
            simp only [Option.some.injEq, Prod.mk.injEq] at h
            obtain ⟨rfl, rfl, rfl⟩ := h
            exact ⟨rfl, (S.err a hq).2, hw⟩
          · rename_i hdd
            rw [if_neg hdd, (S.man a _ hq).1]
            simp only [Option.some.injEq, Prod.mk.injEq] at h
            obtain ⟨rfl, rfl, rfl⟩ := h
            exact ⟨rfl, (S.man a _ hq).2, hw⟩

theorem parseField_simulate {H K : Handler σ} {Q : σ → Prop} {F : List Nat → Prop} (S : Simulates H K Q F)
    {a a' : σ} {s p : List Nat} (hq : Q a) (hf : F s) (h : parseField H a s = some (a', p)) :
    parseField K a s = some (a', p) ∧ Q a' ∧ F p := by
  unfold parseField at h
  split at h
  · simp only [Option.some.injEq, Prod.mk.injEq] at h
    obtain ⟨rfl, rfl⟩ := h
    simp only [parseField]
    rw [(S.err a hq).1]
    exact ⟨rfl, (S.err a hq).2, hf⟩
  · simp only [Option.map_eq_some_iff, Prod.mk.injEq] at h
    obtain ⟨a1, h1, rfl, rfl⟩ := h
    simp only [parseField]
    rw [(S.auto a hq).1]
    obtain ⟨hk, hq'⟩ := S.field _ _ _ _ (S.auto a hq).2 h1
    rw [hk]
    exact ⟨rfl, hq', S.down _ _ hf (List.suffix_cons _ _)⟩
  · simp only [Option.map_eq_some_iff, Prod.mk.injEq] at h
    obtain ⟨a1, h1, rfl, rfl⟩ := h
    simp only [parseField]
    obtain ⟨hk, hq'⟩ := S.lit _ _ _ hq (fun u hu => ⟨_, hf, by rw [List.mem_singleton.1 hu]; simp⟩) h1
    rw [hk]
    exact ⟨rfl, hq', S.down _ _ hf (List.suffix_cons _ _)⟩
  · rename_i n1 n2 n3
    unfold parseField
    split
    · exact absurd rfl n1
    · exact absurd rfl (n2 _)
    · exact absurd rfl (n3 _)
    · split at h
      · exact absurd h (by simp)
      · rename_i a1 id q hid
        obtain ⟨hk, hq1, hf1⟩ := parseArgId_simulate S hq hf hid
        rw [hk]
        dsimp only
        split at h
        · simp only [Option.some.injEq, Prod.mk.injEq] at h
          obtain ⟨rfl, rfl⟩ := h
          rw [(S.err _ hq1).1]
          exact ⟨rfl, (S.err _ hq1).2, hf1⟩
        · simp only [Option.map_eq_some_iff, Prod.mk.injEq] at h
          obtain ⟨a2, h2, rfl, rfl⟩ := h
          obtain ⟨hk2, hq2⟩ := S.field _ _ _ _ hq1 h2
          rw [hk2]
          exact ⟨rfl, hq2, S.down _ _ hf1 (List.suffix_cons _ _)⟩
        · simp only [Option.some.injEq, Prod.mk.injEq] at h
          obtain ⟨rfl, rfl⟩ := h
          rw [(S.err _ hq1).1]
          exact ⟨rfl, (S.err _ hq1).2, hf1⟩
        · rename_i w hw
          split at h
          · exact absurd h (by simp)
          · rename_i a2 p2 h2
            obtain ⟨hk2, hq2, hf2⟩ := S.specs _ _ _ _ _ hq1 (S.down _ _ hf1 (List.suffix_cons _ _)) h2
            rw [hk2]
            dsimp only
            split at h
            · simp only [Option.some.injEq, Prod.mk.injEq] at h
              obtain ⟨rfl, rfl⟩ := h
              exact ⟨rfl, hq2, S.down _ _ hf2 (List.suffix_cons _ _)⟩
            · rename_i hnb
              simp only [Option.some.injEq, Prod.mk.injEq] at h
              obtain ⟨rfl, rfl⟩ := h
              rw [(S.err _ hq2).1]
              exact ⟨rfl, (S.err _ hq2).2, hf2⟩
        · rename_i m1 m2 m3 m4
          simp only [Option.some.injEq, Prod.mk.injEq] at h
          obtain ⟨rfl, rfl⟩ := h
          rw [(S.err _ hq1).1]
          exact ⟨rfl, (S.err _ hq1).2, hf1⟩

theorem parseLoop_simulate {H K : Handler σ} {Q : σ → Prop} {F : List Nat → Prop} (S : Simulates H K Q F) :
    ∀ (n : Nat) (a a' : σ) (s : List Nat), Q a → F s → parseLoop H n a s = some a' →
      parseLoop K n a s = some a' ∧ Q a' := by
  intro n
  induction n with
  | zero => intro a a' s _ _ h; simp [parseLoop] at h
  | succ n ih =>
    intro a a' s hq hf h
    unfold parseLoop at h ⊢
    dsimp only at h ⊢
    have hsuf : s.dropWhile (fun c => ! isBrace c) <:+ s := List.dropWhile_suffix _
    have hlit : ∀ u ∈ s.takeWhile (fun c => ! isBrace c), ∃ s, F s ∧ u ∈ s := fun u hu => ⟨s, hf, (List.takeWhile_prefix _).subset hu⟩
    split at h
    · exact S.lit _ _ _ hq hlit h
    · rename_i c cs hd
      rw [hd] at hsuf
      have hcs : F cs := S.down _ _ hf ((List.suffix_cons _ _).trans hsuf)
      split at h
      · rename_i hc
        rw [if_pos hc]
        split at h
        · exact absurd h (by simp)
        · rename_i a1 h1
          obtain ⟨hk1, hq1⟩ := S.lit _ _ _ hq hlit h1
          rw [hk1]
          dsimp only
          split at h
          · exact absurd h (by simp)
          · rename_i a2 s2 h2
            obtain ⟨hk2, hq2, hf2⟩ := parseField_simulate S hq1 hcs h2
            rw [hk2]
            dsimp only
            rw [S.has]
            split at h
            · rename_i he
              rw [if_pos he]
              cases h
              exact ⟨rfl, hq2⟩
            · rename_i he
              rw [if_neg he]
              exact ih _ _ _ hq2 hf2 h
      · rename_i hc
        rw [if_neg hc]
        split at h
        · rename_i rest
          split at h
          · exact absurd h (by simp)
          · rename_i a1 h1
            have hlit2 : ∀ u ∈ s.takeWhile (fun c => ! isBrace c) ++ [125], ∃ s, F s ∧ u ∈ s := by
              intro u hu
              rcases List.mem_append.1 hu with hu | hu
              · exact hlit u hu
              · exact ⟨_, hcs, by rw [List.mem_singleton.1 hu]; simp⟩
            obtain ⟨hk1, hq1⟩ := S.lit _ _ _ hq hlit2 h1
            rw [hk1]
            exact ih _ _ _ hq1 (S.down _ _ hcs (List.suffix_cons _ _)) h
        · cases h
          rw [(S.err a hq).1]
          exact ⟨rfl, (S.err a hq).2⟩

/-- Whatever the readers of `A` do, those of `B` do too, on sources of `P`, for the specifications that format strings of
    `F` hold. -/
structure EnvSim (A B : Env V) (P F : List Nat → Prop) : Prop where
  enc : B.enc = A.enc
  cfg : B.cfg = A.cfg
  count : B.count = A.count
  ty : B.ty = A.ty
  down : ∀ c s, P (c :: s) → (∃ f, F f ∧ c ∈ f) → P s
  fdown : ∀ s t, F s → t <:+ s → F t
  skip : ∀ s r, P s → A.skip s = some r → B.skip s = some r ∧ P r
  dflt : ∀ id s, P s → id < A.count → A.readDefault id s ≠ .ub →
    B.readDefault id s = A.readDefault id s ∧ ∀ v r, A.readDefault id s = .ok (v, r) → P r
  specs : ∀ id pos setter p s, P s → F pos → id < A.count →
    parseSpecs A.cfg A.enc (A.argTy id) ⟨{}, false⟩ pos = some (setter, 125 :: p) → setter.err = false →
    A.readSpecs id setter.specs s ≠ .ub →
    B.readSpecs id setter.specs s = A.readSpecs id setter.specs s ∧ ∀ v r, A.readSpecs id setter.specs s = .ok (v, r) → P r
  custom : ∀ id, A.argTy id ≠ .custom
  types : ∀ id, (A.argTy id).category ≠ none

theorem EnvSim.argTy {A B : Env V} {P F : List Nat → Prop} (S : EnvSim A B P F) (id : Nat) : B.argTy id = A.argTy id := by
  unfold Env.argTy; rw [S.count, S.ty]

theorem litLoop_simulate {A B : Env V} {P F : List Nat → Prop} (S : EnvSim A B P F) (n : Nat) :
    ∀ (src text : List Nat) (r : List Nat) (f : Option Err), P src → (∀ u ∈ text, ∃ s, F s ∧ u ∈ s) → litLoop A n src text = some (r, f) →
      litLoop B n src text = some (r, f) ∧ P r := by
  induction n with
  | zero =>
    intro src text r f hp ht h
    cases text with
    | nil =>
      simp only [litLoop, Option.some.injEq, Prod.mk.injEq] at h ⊢
      obtain ⟨rfl, rfl⟩ := h
      exact ⟨⟨rfl, rfl⟩, hp⟩
    | cons => simp [litLoop] at h
  | succ n ih =>
    intro src text r f hp ht h
    cases text with
    | nil =>
      simp only [litLoop, Option.some.injEq, Prod.mk.injEq] at h ⊢
      obtain ⟨rfl, rfl⟩ := h
      exact ⟨⟨rfl, rfl⟩, hp⟩
    | cons c cs =>
      cases src with
      | nil =>
        simp only [litLoop, Option.some.injEq, Prod.mk.injEq] at h ⊢
        obtain ⟨rfl, rfl⟩ := h
        exact ⟨⟨rfl, rfl⟩, hp⟩
      | cons d ds =>
        unfold litLoop at h ⊢
        dsimp only at h ⊢
        rw [S.enc]
        split at h
        · exact absurd h (by simp)
        · rename_i after cp hg
          split at h
          · rename_i hc
            rw [if_pos hc]
            cases h
            exact ⟨rfl, hp⟩
          · rename_i hc
            rw [if_neg hc]
            split at h
            · rename_i hsp
              rw [if_pos hsp]
              split at h
              · rename_i src' text' h1 h2
                obtain ⟨hb, hp'⟩ := S.skip _ _ hp h1
                rw [hb, h2]
                exact ih _ _ _ _ hp' (fun u hu => ht u (((readWhileSpace_suffix _ _ _ _ h2).trans (getNext_suffix hg).1).subset hu)) h
              · exact absurd h (by simp)
            · rename_i hsp
              rw [if_neg hsp]
              split at h
              · rename_i hne
                rw [if_pos hne]
                cases h
                exact ⟨rfl, hp⟩
              · rename_i hne
                rw [if_neg hne]
                exact ih _ _ _ _ (S.down _ _ hp (Classical.not_not.1 hne ▸ ht c (by simp))) (fun u hu => ht u (List.mem_cons_of_mem _ hu)) h

theorem setVisited_src {c : Nat} {st st' : FH V} {id : Nat} (h : st.setVisited c id = some st') :
    st'.src = st.src ∧ st'.fmtPos = st.fmtPos := by
  unfold FH.setVisited at h
  split at h
  · cases h; exact ⟨rfl, rfl⟩
  · split at h
    · exact absurd h (by simp)
    · rename_i v _
      dsimp only at h
      split at h
      · cases h; cases v <;> exact ⟨rfl, rfl⟩
      · split at h
        · exact absurd h (by simp)
        · cases h; cases v <;> exact ⟨rfl, rfl⟩

theorem enter_keeps {env : Env V} {st st' : FH V} {id : Nat} (h : st.enter env id = some st') :
    st'.src = st.src ∧ st'.fmtPos = st.fmtPos := by
  unfold FH.enter at h
  have := setVisited_src h
  split at this <;> exact this

theorem onVisit_simulate {P : List Nat → Prop} {st st' : FH V} {id : Nat} {r r' : Res (V × List Nat)}
    (hr : r ≠ .ub → r' = r ∧ ∀ v q, r = .ok (v, q) → P q) (hp : P st.src) (h : st.onVisit id r = some st') :
    st.onVisit id r' = some st' ∧ P st'.src ∧ st'.fmtPos = st.fmtPos := by
  have hne : r ≠ .ub := by
    rintro rfl
    simp [FH.onVisit] at h
  obtain ⟨rfl, hok⟩ := hr hne
  refine ⟨h, ?_⟩
  unfold FH.onVisit at h
  dsimp only at h
  split at h
  · exact absurd h (by simp)
  · cases h; exact ⟨hp, rfl⟩
  · cases h; exact ⟨hok _ _ rfl, rfl⟩

theorem runHandler_simulate {A B : Env V} {P F : List Nat → Prop} (S : EnvSim A B P F) :
    Simulates (runHandler A) (runHandler B) (fun st => P st.src ∧ F st.fmtPos) F where
  down := S.fdown
  lit a t a' hq ht h := by
    show FH.onLiteral B a t = some a' ∧ _
    have h' : FH.onLiteral A a t = some a' := h
    unfold FH.onLiteral at h' ⊢
    split at h'
    · exact absurd h' (by simp)
    · rename_i src f hl
      obtain ⟨hb, hp⟩ := litLoop_simulate S _ _ _ _ _ hq.1 ht hl
      rw [hb]
      dsimp only at h' ⊢
      split at h'
      · cases h'; exact ⟨rfl, hp, hq.2⟩
      · cases h'; exact ⟨rfl, hp, hq.2⟩
  auto _ hq := ⟨rfl, hq⟩
  man _ _ hq := ⟨rfl, hq⟩
  field a id pos a' hq h := by
    show FH.onField B a id = some a' ∧ _
    have h' : FH.onField A a id = some a' := h
    unfold FH.onField at h' ⊢
    have he : a.enter B id = a.enter A id := by unfold FH.enter; rw [S.count]
    rw [he]
    split at h'
    · exact absurd h' (by simp)
    · rename_i st hst
      obtain ⟨hs, hf⟩ := enter_keeps hst
      have hc : st.canVisit B id = st.canVisit A id := by unfold FH.canVisit; rw [S.count]
      rw [hc]
      split at h'
      · rename_i hv
        rw [if_pos hv]
        have hid : id < A.count := by
          unfold FH.canVisit at hv
          simp only [Bool.and_eq_true, decide_eq_true_eq] at hv
          exact hv.2
        have hp : P st.src := hs ▸ hq.1
        obtain ⟨h1, h2, h3⟩ := onVisit_simulate (fun hne => S.dflt id st.src hp hid hne) hp h'
        exact ⟨h1, h2, by rw [h3, hf]; exact hq.2⟩
      · rename_i hv
        rw [if_neg hv]
        cases h'
        exact ⟨rfl, hs ▸ hq.1, hf ▸ hq.2⟩
  specs a id pos a' p hq hpos h := by
    show FH.onSpecs B a id pos = some (a', p) ∧ _
    have h' : FH.onSpecs A a id pos = some (a', p) := h
    unfold FH.onSpecs at h' ⊢
    have he : a.enter B id = a.enter A id := by unfold FH.enter; rw [S.count]
    rw [he]
    split at h'
    · exact absurd h' (by simp)
    · rename_i st hst
      obtain ⟨hs, hf⟩ := enter_keeps hst
      rw [S.argTy]
      rw [if_neg (S.custom id)] at h' ⊢
      rw [S.cfg, S.enc]
      split at h'
      · exact absurd h' (by simp)
      · rename_i setter q hps
        split at h'
        · rename_i q'
          split at h'
          · rename_i herr
            rw [if_pos herr]
            cases h'
            exact ⟨rfl, ⟨hs ▸ hq.1, hf ▸ hq.2⟩, hf ▸ hq.2⟩
          · rename_i herr
            rw [if_neg herr]
            have hq' : F (125 :: q') := by
              refine S.fdown _ _ hpos ?_
              have := parseSpecs_steps A.cfg A.enc (A.argTy id) ⟨{}, false⟩ pos (Or.inl (S.types id))
              rw [hps] at this
              obtain ⟨_, _, h1, h2⟩ := this
              cases h1
              exact h2
            dsimp only at h' ⊢
            have hc : FH.canVisit B { st with fmtPos := 125 :: q' } id = FH.canVisit A { st with fmtPos := 125 :: q' } id := by
              unfold FH.canVisit; rw [S.count]
            rw [hc]
            split at h'
            · rename_i hv
              rw [if_pos hv]
              have hid : id < A.count := by
                unfold FH.canVisit at hv
                simp only [Bool.and_eq_true, decide_eq_true_eq] at hv
                exact hv.2
              have hp : P st.src := hs ▸ hq.1
              simp only [Option.map_eq_some_iff, Prod.mk.injEq] at h'
              obtain ⟨st2, h2, rfl, rfl⟩ := h'
              obtain ⟨h3, h4, h5⟩ := onVisit_simulate (st := { st with fmtPos := 125 :: q' })
                (fun hne => S.specs id pos setter q' st.src hp hpos hid hps (by simpa using herr) hne) hp h2
              rw [h3]
              exact ⟨rfl, ⟨h4, by rw [h5]; exact hq'⟩, by rw [h5]; exact hq'⟩
            · rename_i hv
              rw [if_neg hv]
              cases h'
              exact ⟨rfl, ⟨hs ▸ hq.1, hq'⟩, hq'⟩
        · rename_i hnb
          cases h'
          exact ⟨rfl, ⟨hs ▸ hq.1, hf ▸ hq.2⟩, hf ▸ hq.2⟩
  err _ hq := ⟨rfl, hq⟩
  has _ := rfl

/-- Where a call over the first environment is defined, the same call over the second does the same. -/
theorem vscan_simulate {A B : Env V} {P F : List Nat → Prop} (S : EnvSim A B P F) (fmt src : List Nat) (hp : P src) (hf : F fmt)
    {r : Except Err (List Nat) × List (Event V)} (h : vscan A fmt src = some r) : vscan B fmt src = some r := by
  unfold vscan at h ⊢
  rw [S.count]
  split at h
  · rename_i hc
    rw [if_pos hc]
    unfold scanSimple at h ⊢
    have hne : A.readDefault 0 src ≠ .ub := by
      intro hu; rw [hu] at h; simp at h
    rw [(S.dflt 0 src hp (by rw [hc.2]; decide) hne).1]
    exact h
  · rename_i hc
    rw [if_neg hc]
    unfold vscanGeneral at h ⊢
    rw [S.count]
    cases hl : parseLoop (runHandler A) (parseFuel A.count fmt) (FH.init A.count fmt src) fmt with
    | none => rw [hl] at h; simp at h
    | some st =>
      rw [hl] at h
      rw [(parseLoop_simulate (runHandler_simulate S) _ _ _ _ ⟨hp, hf⟩ hf hl).1]
      exact h

end Scn
