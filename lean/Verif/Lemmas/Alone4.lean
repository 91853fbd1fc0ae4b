import Verif.Lemmas.Alone3
import Verif.Lemmas.Follows
/-
The driver: what a scan has consumed is scanned the same on its own.
-/
namespace Scn
open Spec
variable {V : Type}

/-- The value that a field was assigned, if any. -/
def valueOf : Event V → Option (Nat × V)
  | .visit id _ (.ok (v, _)) => some (id, v)
  | _ => none

/-- The readers of a call, for the specifications in the format string: what they have consumed before `q` they read the same on its own. -/
structure EnvAlone (env : Env V) (e : Enc) (q fmt : List Nat) : Prop where
  enc : env.enc = e
  keeps : ∀ cps, (∀ c ∈ cps, IsScalar c) → EnvKeeps env e cps fmt
  skip : ∀ cps, (∀ c ∈ cps, IsScalar c) → env.skip (encodes e cps) = some (encodes e (cps.dropWhile isSpace))
  dflt : ∀ id a b v, (∀ c ∈ a ++ q, IsScalar c) → b <:+ a → env.readDefault id (encodes e (a ++ q)) = .ok (v, encodes e (b ++ q)) →
    env.readDefault id (encodes e a) = .ok (v, encodes e b)
  specs : ∀ id pos setter p a b v, (∀ c ∈ a ++ q, IsScalar c) → b <:+ a → pos <:+ fmt →
    parseSpecs env.cfg env.enc (env.argTy id) ⟨{}, false⟩ pos = some (setter, p) → setter.err = false →
    env.readSpecs id setter.specs (encodes e (a ++ q)) = .ok (v, encodes e (b ++ q)) → env.readSpecs id setter.specs (encodes e a) = .ok (v, encodes e b)

/-- Whitespace in the format has something to match: whitespace follows, or nothing; or there is no such whitespace. -/
def SpaceFollows (q text : List Nat) : Prop := (q = [] ∨ ∃ x t, q = x :: t ∧ isSpace x = true) ∨ ∀ u ∈ text, 32 < u ∧ u < 128

theorem getNext_ascii_space {e : Enc} {c : Nat} {cs after : List Nat} {cp : Nat} (hc : 32 < c ∧ c < 128) (h : getNext e (c :: cs) = some (after, cp)) :
    isCpSpace cp = false := by
  have h1 : getNext e (encode e c ++ cs) = some (cs, c) := getNext_encode e c (by unfold IsScalar; omega) cs
  rw [encode_ascii e c hc.2] at h1
  rw [List.singleton_append] at h1
  rw [h1] at h
  cases h
  rw [isSpace_eq]
  obtain ⟨h1, h2⟩ := hc
  have : ∀ n < 128, 32 < n → isSpace n = false := by decide
  exact this c h2 h1

/-- One step over literal text that matches. -/
theorem litLoop_one {env : Env V} {e : Enc} (he : env.enc = e) {n x : Nat} {t : List Nat} {c : Nat} {cs r : List Nat}
    (hs : ∀ y ∈ x :: t, IsScalar y) (h : litLoop env (n + 1) (encodes e (x :: t)) (c :: cs) = some (r, none)) :
    (∃ after cp text', getNext e (c :: cs) = some (after, cp) ∧ isCpSpace cp = true ∧
      ∀ s s', s ≠ [] → env.skip s = some s' → litLoop env (n + 1) s (c :: cs) = litLoop env n s' text') ∨
    (encode e x = [c] ∧ ∀ s, litLoop env (n + 1) (c :: s) (c :: cs) = litLoop env n s cs) := by
  obtain ⟨d, ds, hds⟩ : ∃ d ds, encodes e (x :: t) = d :: ds := by
    obtain ⟨d, ds, hd⟩ := encode_cons e x
    exact ⟨d, ds ++ encodes e t, by rw [encodes_cons, hd]; rfl⟩
  rw [hds] at h
  unfold litLoop at h
  dsimp only at h
  cases hg : getNext env.enc (c :: cs) with
  | none => rw [hg] at h; cases h
  | some ac =>
    obtain ⟨after, cp⟩ := ac
    rw [hg] at h
    dsimp only at h
    by_cases hi : cp = invalidCp
    · rw [if_pos hi] at h; simp at h
    rw [if_neg hi] at h
    cases hsp : isCpSpace cp with
    | true =>
      left
      rw [if_pos hsp] at h
      split at h
      · rename_i src' text' h1 h2
        refine ⟨after, cp, text', by rw [← he]; exact hg, hsp, fun s s' hs' hss => ?_⟩
        cases s with
        | nil => exact absurd rfl hs'
        | cons y ys =>
          rw [litLoop]
          rw [hg]
          dsimp only
          rw [if_neg hi, if_pos hsp, hss, h2]
      · cases h
    | false =>
      right
      rw [if_neg (by simp [hsp])] at h
      by_cases hdc : d = c
      · rw [if_neg (by simpa using hdc)] at h
        subst hdc
        refine ⟨?_, fun s => ?_⟩
        · obtain ⟨x', t', hxt, hl, htk, hdr⟩ := encodes_first hs hds
          cases hxt
          by_cases h1 : cpLength e d = 1
          · rw [h1] at htk
            rw [← htk]; rfl
          · exfalso
            have h0 : cpLength e d ≠ 0 := by
              rw [hl]
              intro h0
              exact encode_ne_nil e x (List.length_eq_zero_iff.1 h0)
            unfold getNext at hg
            dsimp only at hg
            rw [he, if_neg h0] at hg
            split at hg
            · simp only [Option.some.injEq, Prod.mk.injEq] at hg
              exact hi hg.2.symm
            · rename_i hlen
              simp only [Option.map_eq_some_iff, Prod.mk.injEq] at hg
              obtain ⟨cp', hdec, _, rfl⟩ := hg
              cases cs with
              | nil => simp at hlen; omega
              | cons y ys =>
                obtain ⟨k, hk⟩ : ∃ k, cpLength e d = k + 2 := ⟨cpLength e d - 2, by omega⟩
                rw [hk] at hdec
                simp only [List.take_succ_cons] at hdec
                exact litLoop_inside (by rw [he]; exact decoded_second hdec hi) h
        · rw [litLoop]
          rw [hg]
          dsimp only
          rw [if_neg hi, if_neg (by simp [hsp]), if_neg (by simp)]
      · rw [if_pos hdc] at h; simp at h

/-- Literal text on the part. -/
theorem litLoop_alone {env : Env V} {e : Enc} {q fmt : List Nat} (A : EnvAlone env e q fmt) : ∀ (n : Nat) (a text r : List Nat),
    (∀ c ∈ a ++ q, IsScalar c) → SpaceFollows q text → litLoop env n (encodes e (a ++ q)) text = some (r, none) →
      (∃ t, (∀ c ∈ t, IsScalar c) ∧ r = encodes e t ∧ r.length < (encodes e q).length) ∨
      ∃ b, b <:+ a ∧ r = encodes e (b ++ q) ∧ litLoop env n (encodes e a) text = some (encodes e b, none) := by
  have beyond : ∀ n t text r, (∀ c ∈ t, IsScalar c) → (encodes e t).length < (encodes e q).length →
      litLoop env n (encodes e t) text = some (r, none) → ∃ t, (∀ c ∈ t, IsScalar c) ∧ r = encodes e t ∧ r.length < (encodes e q).length := by
    intro n t text r ht hlt h
    obtain ⟨u, hu, rfl⟩ := litLoop_between A.enc (A.keeps t ht).skip ht n _ _ _ (Between.here e t) h
    exact ⟨u, fun c hc => ht c (hu.subset hc), rfl, Nat.lt_of_le_of_lt (between_length ⟨u, hu, rfl⟩) hlt⟩
  intro n
  induction n with
  | zero =>
    intro a text r hs _ h
    cases text with
    | nil =>
      simp only [litLoop, Option.some.injEq, Prod.mk.injEq, and_true] at h
      exact Or.inr ⟨a, List.suffix_refl _, h.symm, rfl⟩
    | cons => simp [litLoop] at h
  | succ n ih =>
    intro a text r hs hsf h
    cases text with
    | nil =>
      simp only [litLoop, Option.some.injEq, Prod.mk.injEq, and_true] at h
      exact Or.inr ⟨a, List.suffix_refl _, h.symm, rfl⟩
    | cons c cs =>
      cases a with
      | nil =>
        left
        rw [List.nil_append] at h hs
        cases q with
        | nil => simp [encodes_nil, litLoop] at h
        | cons x q =>
          have hq : ∀ c ∈ q, IsScalar c := fun c hc => hs c (List.mem_cons_of_mem _ hc)
          have hlt : (encodes e q).length < (encodes e (x :: q)).length := by
            rw [encodes_cons, List.length_append]
            have := List.length_pos_iff.2 (encode_ne_nil e x)
            omega
          rcases litLoop_one A.enc hs h with ⟨after, cp, text', hg, hsp, hstep⟩ | ⟨hx, hstep⟩
          · rcases hsf with hsf | hsf
            · rcases hsf with hsf | ⟨y, t, hyt, hy⟩
              · cases hsf
              · cases hyt
                rw [hstep _ _ (by rw [encodes_cons]; simp [encode_ne_nil]) (A.skip _ hs), List.dropWhile_cons_of_pos hy] at h
                refine beyond n _ _ _ (fun c hc => hq c ((List.dropWhile_suffix _).subset hc)) ?_ h
                exact Nat.lt_of_le_of_lt (between_length ⟨_, List.dropWhile_suffix _, rfl⟩) hlt
            · rw [getNext_ascii_space (hsf c (by simp)) hg] at hsp; cases hsp
          · rw [encodes_cons, hx, List.singleton_append, hstep] at h
            exact beyond n q cs r hq (by rw [encodes_cons, hx] at hlt; rw [encodes_cons, hx]; exact hlt) h
      | cons x a =>
        have hcs : SpaceFollows q cs := by
          rcases hsf with h | h
          · exact Or.inl h
          · exact Or.inr fun u hu => h u (List.mem_cons_of_mem _ hu)
        have hs' : ∀ c ∈ a ++ q, IsScalar c := fun c hc => hs c (by rw [List.cons_append]; exact List.mem_cons_of_mem _ hc)
        have hsa : ∀ c ∈ x :: a, IsScalar c := fun c hc => hs c (List.mem_append_left _ hc)
        rcases litLoop_one A.enc (x := x) (t := a ++ q) hs h with ⟨after, cp, text', hg, hsp, hstep⟩ | ⟨hx, hstep⟩
        · rcases hsf with hsf | hsf
          · rw [hstep _ _ (by rw [List.cons_append, encodes_cons]; simp [encode_ne_nil]) (A.skip _ hs), dropWhile_split] at h
            rw [hstep _ _ (by rw [encodes_cons]; simp [encode_ne_nil]) (A.skip _ hsa)]
            have hd : (x :: a).dropWhile isSpace <:+ x :: a := List.dropWhile_suffix _
            split at h
            · rename_i hnil
              -- all of the part is whitespace
              rw [hnil]
              rcases hsf with rfl | ⟨y, t, rfl, hy⟩
              · simp only [List.dropWhile_nil] at h
                rcases ih [] text' r (by simp) (Or.inl (Or.inl rfl)) h with h' | ⟨b, h1, h2, h3⟩
                · exact Or.inl h'
                · exact Or.inr ⟨b, h1.trans (List.nil_suffix), h2, h3⟩
              · left
                rw [List.dropWhile_cons_of_pos hy] at h
                have hst : ∀ c ∈ t, IsScalar c := fun c hc => hs' c (by simp [hc])
                refine beyond n _ _ _ (fun c hc => hst c ((List.dropWhile_suffix _).subset hc)) ?_ h
                refine Nat.lt_of_le_of_lt (between_length ⟨_, List.dropWhile_suffix _, rfl⟩) ?_
                rw [encodes_cons, List.length_append]
                have := List.length_pos_iff.2 (encode_ne_nil e y)
                omega
            · rcases ih _ text' r (fun c hc => hs c (by
                rcases List.mem_append.1 hc with hc | hc
                · exact List.mem_append_left _ (hd.subset hc)
                · exact List.mem_append_right _ hc)) (Or.inl hsf) h with h' | ⟨b, h1, h2, h3⟩
              · exact Or.inl h'
              · exact Or.inr ⟨b, h1.trans hd, h2, h3⟩
          · rw [getNext_ascii_space (hsf c (by simp)) hg] at hsp; cases hsp
        · rw [List.cons_append, encodes_cons, hx, List.singleton_append, hstep] at h
          rw [encodes_cons, hx, List.singleton_append, hstep]
          rcases ih a cs r hs' hcs h with h' | ⟨b, h1, h2, h3⟩
          · exact Or.inl h'
          · exact Or.inr ⟨b, h1.trans (List.suffix_cons _ _), h2, h3⟩

/-- The call has gone wrong, or beyond the part. -/
def Beyond (e : Enc) (q fmt : List Nat) (st : FH V) : Prop :=
  (st.err = none → ∃ t, (∀ c ∈ t, IsScalar c) ∧ st.src = encodes e t ∧ st.src.length < (encodes e q).length) ∧ st.fmtPos <:+ fmt

/-- The call over the whole text, and the call over the part. -/
def Beside (e : Enc) (q fmt : List Nat) (a b : FH V) : Prop :=
  a.err = none ∧ a.fmtPos <:+ fmt ∧ ∃ t evs, (∀ c ∈ t ++ q, IsScalar c) ∧ a.src = encodes e (t ++ q) ∧
    b = { a with src := encodes e t, events := evs } ∧ evs.filterMap valueOf = a.events.filterMap valueOf

theorem setVisited_none {c : Nat} {st st' : FH V} {id : Nat} (h : st.setVisited c id = some st') (hn : st'.err = none) : st.err = none := by
  unfold FH.setVisited at h
  split at h
  · cases h; cases hn
  · split at h
    · exact absurd h (by simp)
    · rename_i v _
      dsimp only at h
      split at h
      · cases h; cases v
        · exact hn
        · cases hn
      · split at h
        · exact absurd h (by simp)
        · cases h; cases v
          · exact hn
          · cases hn

theorem setVisited_with {c : Nat} {st : FH V} {id : Nat} (s : List Nat) (evs : List (Event V)) :
    ({ st with src := s, events := evs } : FH V).setVisited c id = (st.setVisited c id).map fun x => { x with src := s, events := evs } := by
  unfold FH.setVisited
  split
  · rfl
  · show (match st.visited id with | none => none | some v => _) = _
    cases st.visited id with
    | none => rfl
    | some v =>
      dsimp only
      cases v with
      | true =>
        simp only [if_true]
        split
        · rfl
        · show (match st.upper[(id - 64) / 8]? with | none => none | some b => _) = _
          simp only [FH.onError]
          cases st.upper[(id - 64) / 8]? <;> rfl
      | false =>
        simp only [Bool.false_eq_true, if_false]
        split
        · rfl
        · cases st.upper[(id - 64) / 8]? <;> rfl

theorem enter_with {env : Env V} {st : FH V} {id : Nat} (s : List Nat) (evs : List (Event V)) :
    ({ st with src := s, events := evs } : FH V).enter env id = (st.enter env id).map fun x => { x with src := s, events := evs } := by
  unfold FH.enter
  rw [← setVisited_with]
  split <;> rfl

theorem setVisited_same {c : Nat} {st st' : FH V} {id : Nat} (h : st.setVisited c id = some st') : st'.events = st.events := by
  unfold FH.setVisited at h
  split at h
  · cases h; rfl
  · split at h
    · exact absurd h (by simp)
    · rename_i v _
      dsimp only at h
      split at h
      · cases h; cases v <;> rfl
      · split at h
        · exact absurd h (by simp)
        · cases h; cases v <;> rfl

theorem enter_same {env : Env V} {st st' : FH V} {id : Nat} (h : st.enter env id = some st') :
    st'.src = st.src ∧ st'.fmtPos = st.fmtPos ∧ st'.events = st.events ∧ (st'.err = none → st.err = none) := by
  unfold FH.enter at h
  obtain ⟨h1, h2⟩ := setVisited_src h
  have h3 := setVisited_same h
  have h4 := setVisited_none h
  split at h1
  · rename_i hid
    rw [if_pos hid] at h2 h3 h4
    exact ⟨h1, h2, h3, fun hn => by cases h4 hn⟩
  · rename_i hid
    rw [if_neg hid] at h2 h3 h4
    exact ⟨h1, h2, h3, h4⟩

theorem Beyond.entered {env : Env V} {e : Enc} {q fmt : List Nat} {st st' : FH V} {id : Nat} (hb : Beyond e q fmt st) (h : st.enter env id = some st') :
    Beyond e q fmt st' := by
  obtain ⟨h1, h2, _, h4⟩ := enter_same h
  refine ⟨fun hn => ?_, by rw [h2]; exact hb.2⟩
  rw [h1]; exact hb.1 (h4 hn)

theorem Beyond.error {e : Enc} {q fmt : List Nat} {st : FH V} (h : st.fmtPos <:+ fmt) (x : Err) : Beyond e q fmt (st.onError x) :=
  ⟨fun hn => (by cases hn), h⟩

theorem Beyond.visited {e : Enc} {q fmt : List Nat} {st st' : FH V} {id : Nat} {res : Res (V × List Nat)} (hn : st.err = none)
    (hb : Beyond e q fmt st) (hr : ∀ t, (∀ c ∈ t, IsScalar c) → st.src = encodes e t → ∀ v r, res = .ok (v, r) → Between e t r)
    (h : st.onVisit id res = some st') : Beyond e q fmt st' ∧ st'.fmtPos = st.fmtPos := by
  unfold FH.onVisit at h
  dsimp only at h
  split at h
  · cases h
  · cases h
    exact ⟨⟨fun hn => (by cases hn), hb.2⟩, rfl⟩
  · rename_i v rest
    cases h
    refine ⟨⟨fun _ => ?_, hb.2⟩, rfl⟩
    obtain ⟨t, ht, h1, h2⟩ := hb.1 hn
    have hbt := hr t ht h1 v rest rfl
    obtain ⟨u, hu, rfl⟩ := hbt
    refine ⟨u, fun c hc => ht c (hu.subset hc), rfl, ?_⟩
    rw [h1] at h2
    exact Nat.lt_of_le_of_lt (between_length ⟨u, hu, rfl⟩) h2

/-- The type of an argument and the format position after its specification. -/
theorem specs_position {env : Env V} {id : Nat} (htypes : (env.argTy id).category ≠ none) {pos fmt q' : List Nat} {setter : Setter}
    (hpos : pos <:+ fmt) (hps : parseSpecs env.cfg env.enc (env.argTy id) ⟨{}, false⟩ pos = some (setter, 125 :: q')) : (125 :: q') <:+ fmt := by
  refine List.IsSuffix.trans ?_ hpos
  have := parseSpecs_steps env.cfg env.enc (env.argTy id) ⟨{}, false⟩ pos (Or.inl htypes)
  rw [hps] at this
  obtain ⟨_, _, h1, h2⟩ := this
  cases h1
  exact h2

theorem beyond_stays {env : Env V} {e : Enc} {q fmt : List Nat} (A : EnvAlone env e q fmt) :
    Simulates (runHandler env) (runHandler env) (Beyond e q fmt) (· <:+ fmt) where
  down _ _ h ht := ht.trans h
  lit a t a' hq _ h := by
    refine ⟨h, ?_⟩
    have h' : FH.onLiteral env a t = some a' := h
    unfold FH.onLiteral at h'
    split at h'
    · cases h'
    · rename_i src f hl
      dsimp only at h'
      split at h'
      · cases h'
        refine ⟨fun hn => ?_, hq.2⟩
        obtain ⟨u, hu, h1, h2⟩ := hq.1 hn
        rw [h1] at hl h2
        obtain ⟨w, hw, rfl⟩ := litLoop_between A.enc (A.keeps u hu).skip hu _ _ _ _ (Between.here e u) hl
        exact ⟨w, fun c hc => hu c (hw.subset hc), rfl, Nat.lt_of_le_of_lt (between_length ⟨w, hw, rfl⟩) h2⟩
      · cases h'
        exact ⟨fun hn => (by cases hn), hq.2⟩
  auto _ hq := ⟨rfl, hq⟩
  man _ _ hq := ⟨rfl, hq⟩
  field a id pos a' hq h := by
    refine ⟨h, ?_⟩
    have h' : FH.onField env a id = some a' := h
    unfold FH.onField at h'
    split at h'
    · cases h'
    · rename_i st hst
      have hp := hq.entered hst
      split at h'
      · rename_i hv
        exact (hp.visited (canVisit_ok hv) (fun t ht hst v r hr => (A.keeps t ht).dflt id _ v r (Between.here e t) (by rw [← hst]; exact hr)) h').1
      · cases h'; exact hp
  specs a id pos a' p hq hpos h := by
    refine ⟨h, ?_⟩
    have K := A.keeps [] (by simp)
    have h' : FH.onSpecs env a id pos = some (a', p) := h
    unfold FH.onSpecs at h'
    split at h'
    · cases h'
    · rename_i st hst
      have hp := hq.entered hst
      rw [if_neg (K.custom id)] at h'
      split at h'
      · cases h'
      · rename_i setter q hps
        split at h'
        · rename_i q'
          split at h'
          · cases h'; exact ⟨hp, hp.2⟩
          · rename_i herr
            have hq' := specs_position (K.types id) hpos hps
            have hp' : Beyond e q fmt { st with fmtPos := 125 :: q' } := ⟨hp.1, hq'⟩
            dsimp only at h'
            split at h'
            · rename_i hv
              simp only [Option.map_eq_some_iff, Prod.mk.injEq] at h'
              obtain ⟨st2, h2, rfl, rfl⟩ := h'
              obtain ⟨h3, h4⟩ := hp'.visited (canVisit_ok hv)
                (fun t ht hst v r hr => (A.keeps t ht).specs id pos setter _ _ v r (Between.here e t) hpos hps (by simpa using herr)
                  (by rw [← hst]; exact hr)) h2
              exact ⟨h3, h3.2⟩
            · cases h'; exact ⟨hp', hq'⟩
        · cases h'
          exact ⟨Beyond.error hp.2 _, hp.2⟩
  err _ hq := ⟨rfl, Beyond.error hq.2 _⟩
  has _ := rfl

/-- A visit on both sides. -/
theorem visit_follows {e : Enc} {q fmt : List Nat} {st st' : FH V} {t : List Nat} {evs : List (Event V)} {id : Nat} {res resb : Res (V × List Nat)}
    (hn : st.err = none) (hf : st.fmtPos <:+ fmt) (hs : ∀ c ∈ t ++ q, IsScalar c)
    (hev : evs.filterMap valueOf = st.events.filterMap valueOf)
    (hk : ∀ v r, res = .ok (v, r) → Between e (t ++ q) r)
    (ha : ∀ b v, b <:+ t → res = .ok (v, encodes e (b ++ q)) → resb = .ok (v, encodes e b))
    (h : st.onVisit id res = some st') :
    st'.fmtPos = st.fmtPos ∧ (Beyond e q fmt st' ∨
      ∃ b', ({ st with src := encodes e t, events := evs } : FH V).onVisit id resb = some b' ∧ b'.fmtPos = st'.fmtPos ∧ Beside e q fmt st' b') := by
  unfold FH.onVisit at h
  dsimp only at h
  split at h
  · cases h
  · cases h
    exact ⟨rfl, Or.inl ⟨fun hn => (by cases hn), hf⟩⟩
  · rename_i v rest
    cases h
    refine ⟨rfl, ?_⟩
    obtain ⟨u, hu, rfl⟩ := hk v rest rfl
    have hsu : ∀ c ∈ u, IsScalar c := fun c hc => hs c (hu.subset hc)
    rcases Nat.lt_or_ge u.length q.length with hlt | hge
    · left
      have huq : u <:+ q := List.suffix_of_suffix_length_le hu (List.suffix_append _ _) (Nat.le_of_lt hlt)
      obtain ⟨w, rfl⟩ := huq
      refine ⟨fun _ => ⟨u, hsu, rfl, ?_⟩, hf⟩
      dsimp only
      rw [encodes_append, List.length_append]
      rw [List.length_append] at hlt
      cases w with
      | nil => simp at hlt
      | cons x w =>
        rw [encodes_cons, List.length_append]
        have := List.length_pos_iff.2 (encode_ne_nil e x)
        omega
    · right
      have huq : q <:+ u := List.suffix_of_suffix_length_le (List.suffix_append _ _) hu hge
      obtain ⟨b, rfl⟩ := huq
      have hbt : b <:+ t := by
        obtain ⟨w, hw⟩ := hu
        rw [← List.append_assoc] at hw
        exact ⟨w, List.append_cancel_right hw⟩
      rw [ha b v hbt rfl]
      refine ⟨_, rfl, rfl, hn, hf, b, _, hsu, rfl, rfl, ?_⟩
      dsimp only
      rw [List.filterMap_append, List.filterMap_append, hev]
      rfl

theorem alone_follows {env : Env V} {e : Enc} {q fmt : List Nat} (A : EnvAlone env e q fmt) (hsf : SpaceFollows q fmt) :
    Follows (runHandler env) (runHandler env) (Beside e q fmt) (Beyond e q fmt) (· <:+ fmt) where
  stays := beyond_stays A
  lit a b t a' hr ht h := by
    obtain ⟨hn, hf, u, evs, hs, hsrc, rfl, hev⟩ := hr
    have h' : FH.onLiteral env a t = some a' := h
    have hst : SpaceFollows q t := by
      rcases hsf with h | h
      · exact Or.inl h
      · refine Or.inr fun x hx => ?_
        obtain ⟨s, h1, h2⟩ := ht x hx
        exact h x (h1.subset h2)
    unfold FH.onLiteral at h'
    split at h'
    · cases h'
    · rename_i src f hl
      dsimp only at h'
      split at h'
      · cases h'
        rw [hsrc] at hl
        rcases litLoop_alone A _ u t src hs hst hl with ⟨w, h1, h2, h3⟩ | ⟨w, h1, h2, h3⟩
        · exact Or.inl ⟨fun _ => ⟨w, h1, h2, h3⟩, hf⟩
        · right
          subst h2
          refine ⟨{ a with src := encodes e w, events := evs ++ [Event.literal t (encodes e u) (encodes e w) none] }, ?_, hn, hf, w, _,
            fun c hc => hs c ?_, rfl, rfl, ?_⟩
          · show FH.onLiteral env { a with src := encodes e u, events := evs } t = _
            unfold FH.onLiteral
            dsimp only
            rw [h3]
          · rcases List.mem_append.1 hc with hc | hc
            · exact List.mem_append_left _ (h1.subset hc)
            · exact List.mem_append_right _ hc
          · dsimp only
            rw [List.filterMap_append, List.filterMap_append, hev]
            rfl
      · cases h'
        exact Or.inl ⟨fun hn => (by cases hn), hf⟩
  auto a b hr := by
    obtain ⟨hn, hf, u, evs, hs, hsrc, rfl, hev⟩ := hr
    exact ⟨⟨hn, hf, u, evs, hs, hsrc, rfl, hev⟩, rfl⟩
  man a b id hr := by
    obtain ⟨hn, hf, u, evs, hs, hsrc, rfl, hev⟩ := hr
    exact ⟨⟨hn, hf, u, evs, hs, hsrc, rfl, hev⟩, rfl⟩
  field a b id pos a' hr h := by
    obtain ⟨hn, hf, u, evs, hs, hsrc, rfl, hev⟩ := hr
    have h' : FH.onField env a id = some a' := h
    show _ ∨ ∃ b', FH.onField env _ id = some b' ∧ _
    unfold FH.onField at h' ⊢
    rw [enter_with]
    split at h'
    · cases h'
    · rename_i st hst
      obtain ⟨e1, e2, e3, e4⟩ := enter_same hst
      rw [hst]
      simp only [Option.map_some]
      split at h'
      · rename_i hv
        rw [if_pos (show FH.canVisit env { st with src := encodes e u, events := evs } id = true from hv)]
        rw [e1, hsrc] at h'
        obtain ⟨_, hcase⟩ := visit_follows (e := e) (q := q) (t := u) (evs := evs) (resb := env.readDefault id (encodes e u)) (canVisit_ok hv)
          (by rw [e2]; exact hf) hs (by rw [e3]; exact hev)
          (fun v r hr => (A.keeps _ hs).dflt id _ v r (Between.here e _) hr) (fun b v hb hr => A.dflt id u b v hs hb hr) h'
        rcases hcase with hB | ⟨b', h1, _, h2⟩
        · exact Or.inl hB
        · exact Or.inr ⟨b', h1, h2⟩
      · rename_i hv
        cases h'
        left
        refine ⟨fun hne => ?_, by rw [e2]; exact hf⟩
        -- without an error the argument does not exist, which is an error
        exfalso
        unfold FH.canVisit at hv
        rw [hne] at hv
        simp only [Option.isNone_none, Bool.true_and, decide_eq_true_eq] at hv
        unfold FH.enter at hst
        rw [if_pos (by omega)] at hst
        cases setVisited_none hst hne
  specs a b id pos a' p hr hpos h := by
    obtain ⟨hn, hf, u, evs, hs, hsrc, rfl, hev⟩ := hr
    have K := A.keeps _ hs
    have h' : FH.onSpecs env a id pos = some (a', p) := h
    show _ ∧ (_ ∨ ∃ b', FH.onSpecs env _ id pos = some (b', p) ∧ _)
    unfold FH.onSpecs at h' ⊢
    rw [enter_with]
    split at h'
    · cases h'
    · rename_i st hst
      obtain ⟨e1, e2, e3, e4⟩ := enter_same hst
      have hfs : st.fmtPos <:+ fmt := by rw [e2]; exact hf
      have hbs : ∀ x : FH V, x.err = st.err → x.src = st.src → x.events = st.events → x.fmtPos <:+ fmt → st.err = none →
          Beside e q fmt x { x with src := encodes e u, events := evs } :=
        fun x h1 h2 h3 h4 h5 => ⟨h1.trans h5, h4, u, evs, hs, by rw [h2, e1, hsrc], rfl, by rw [h3, e3, hev]⟩
      rw [hst]
      simp only [Option.map_some]
      rw [if_neg (K.custom id)] at h' ⊢
      split at h'
      · cases h'
      · rename_i setter q0 hps
        split at h'
        · rename_i q'
          have hq' := specs_position (K.types id) hpos hps
          by_cases herr : setter.err = true
          · rw [if_pos herr] at h' ⊢
            cases h'
            refine ⟨hfs, ?_⟩
            by_cases hne : a'.err = none
            · exact Or.inr ⟨_, rfl, hbs a' rfl rfl rfl hfs hne⟩
            · exact Or.inl ⟨fun h => absurd h hne, hfs⟩
          · rw [if_neg herr] at h' ⊢
            dsimp only at h'
            split at h'
            · rename_i hv
              rw [if_pos (show FH.canVisit env { st with fmtPos := 125 :: q', src := encodes e u, events := evs } id = true from hv)]
              simp only [Option.map_eq_some_iff, Prod.mk.injEq] at h'
              obtain ⟨st2, h2, rfl, rfl⟩ := h'
              have h2 : ({ st with fmtPos := 125 :: q' } : FH V).onVisit id (env.readSpecs id setter.specs (encodes e (u ++ q))) = some st2 := by
                rw [← hsrc, ← e1]; exact h2
              obtain ⟨h3, hcase⟩ := visit_follows (st := { st with fmtPos := 125 :: q' }) (e := e) (q := q) (t := u) (evs := evs)
                (resb := env.readSpecs id setter.specs (encodes e u)) (canVisit_ok hv) hq' hs (by dsimp only; rw [e3]; exact hev)
                (fun v r hr => K.specs id pos setter _ _ v r (Between.here e _) hpos hps (by simpa using herr) hr)
                (fun b v hb hr => A.specs id pos setter _ u b v hs hb hpos hps (by simpa using herr) hr) h2
              refine ⟨by rw [h3]; exact hq', ?_⟩
              rcases hcase with hB | ⟨b', h4, h5, h6⟩
              · exact Or.inl hB
              · refine Or.inr ⟨b', ?_, h6⟩
                rw [h4]
                simp only [Option.map_some, Option.some.injEq, Prod.mk.injEq, true_and]
                exact h5
            · rename_i hv
              cases h'
              refine ⟨hq', Or.inl ⟨fun hne => ?_, hq'⟩⟩
              exfalso
              unfold FH.canVisit at hv
              have hne' : st.err = none := hne
              dsimp only at hv
              rw [hne'] at hv
              simp only [Option.isNone_none, Bool.true_and, decide_eq_true_eq] at hv
              unfold FH.enter at hst
              rw [if_pos (by omega)] at hst
              cases setVisited_none hst hne'
        · cases h'
          exact ⟨hfs, Or.inl (Beyond.error hfs _)⟩
  err a b hr := Beyond.error hr.2.1 _
  has a b hr := by
    obtain ⟨hn, hf, u, evs, hs, hsrc, rfl, hev⟩ := hr
    show a.err.isSome = false ∧ a.err.isSome = false
    rw [hn]; exact ⟨rfl, rfl⟩

theorem checkExhausted_with {c : Nat} {st : FH V} (s : List Nat) (evs : List (Event V)) :
    ({ st with src := s, events := evs } : FH V).checkExhausted c = (st.checkExhausted c).map fun x => { x with src := s, events := evs } := by
  unfold FH.checkExhausted
  dsimp only
  generalize (if c ≥ 64 then 2 ^ 64 - 1 else 1 <<< c - 1) = mask
  split
  · rfl
  · split
    · rfl
    · split
      · rfl
      · split
        · rfl
        · split
          · rfl
          · split <;> rfl

theorem checkExhausted_same {c : Nat} {st st' : FH V} (h : st.checkExhausted c = some st') (hn : st'.err = none) : st' = st := by
  unfold FH.checkExhausted at h
  dsimp only at h
  generalize (if c ≥ 64 then 2 ^ 64 - 1 else 1 <<< c - 1) = mask at h
  split at h
  · cases h; cases hn
  · split at h
    · cases h; rfl
    · split at h
      · cases h
      · split at h
        · cases h; cases hn
        · split at h
          · cases h
          · split at h
            · cases h; cases hn
            · cases h; rfl

/-- A successful scan, and the scan over what it consumed: the same values, and nothing left. -/
theorem vscan_alone {env : Env V} {e : Enc} {p q fmt : List Nat} (A : EnvAlone env e q fmt) (hsf : SpaceFollows q fmt)
    (hs : ∀ c ∈ p ++ q, IsScalar c) {evs : List (Event V)} (h : vscan env fmt (encodes e (p ++ q)) = some (.ok (encodes e q), evs)) :
    ∃ evs', vscan env fmt (encodes e p) = some (.ok [], evs') ∧ evs'.filterMap valueOf = evs.filterMap valueOf := by
  unfold vscan at h ⊢
  split at h
  · rename_i hf
    rw [if_pos hf]
    unfold scanSimple at h ⊢
    split at h
    · cases h
    · cases h
    · rename_i v rest hr
      simp only [Option.some.injEq, Prod.mk.injEq, Except.ok.injEq] at h
      obtain ⟨rfl, rfl⟩ := h
      have := A.dflt 0 p [] v hs List.nil_suffix hr
      rw [this]
      exact ⟨_, rfl, rfl⟩
  · rename_i hf
    rw [if_neg hf]
    unfold vscanGeneral at h ⊢
    cases hl : parseLoop (runHandler env) (parseFuel env.count fmt) (FH.init env.count fmt (encodes e (p ++ q))) fmt with
    | none => rw [hl] at h; cases h
    | some st =>
      rw [hl] at h
      simp only [Option.map_eq_some_iff, Prod.mk.injEq] at h
      obtain ⟨st2, h2, h3, rfl⟩ := h
      have hn : st2.err = none := by
        cases hx : st2.err with
        | none => rfl
        | some x => rw [hx] at h3; cases h3
      rw [hn] at h3
      have h3 : st2.src = encodes e q := Except.ok.inj h3
      have := checkExhausted_same h2 hn
      subst this
      have hinit : Beside e q fmt (FH.init env.count fmt (encodes e (p ++ q)) : FH V) (FH.init env.count fmt (encodes e p)) :=
        ⟨rfl, List.suffix_refl _, p, [], hs, rfl, rfl, rfl⟩
      rcases parseLoop_follows (alone_follows A hsf) _ _ _ _ _ hinit (List.suffix_refl _) hl with hB | ⟨b', hb, hr⟩
      · exfalso
        obtain ⟨t, _, _, h4⟩ := hB.1 hn
        rw [h3] at h4
        exact Nat.lt_irrefl _ h4
      · rw [hb]
        obtain ⟨_, _, t, evs, hst, hsrc, rfl, hev⟩ := hr
        dsimp only
        rw [checkExhausted_with, h2]
        simp only [Option.map_some, hn]
        have ht : t = [] := by
          rw [h3] at hsrc
          have := encodes_inj e (fun c hc => hs c (List.mem_append_right _ hc)) hst hsrc
          have hl := congrArg List.length this
          rw [List.length_append] at hl
          exact List.length_eq_zero_iff.1 (by omega)
        rw [ht]
        exact ⟨evs, rfl, hev⟩

end Scn
