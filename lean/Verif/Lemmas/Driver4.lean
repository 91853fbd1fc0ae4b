import Verif.Lemmas.Driver3
/-
The final position is a suffix of the source; literal text against its specification; the
compile-time checker always finishes.
-/
namespace Scn
open Spec
variable {V : Type} {σ τ : Type}

/-! ### Positions -/

/-- Every reader and the whitespace skipper leave a suffix of what they were given. -/
structure Advancing (env : Env V) : Prop where
  skip : ∀ s s', env.skip s = some s' → s' <:+ s
  dflt : ∀ id s v r, env.readDefault id s = .ok (v, r) → r <:+ s
  specs : ∀ id sp s v r, env.readSpecs id sp s = .ok (v, r) → r <:+ s
  custom : ∀ id pos s v r, (env.readCustom id pos s).2 = .ok (v, r) → r <:+ s

theorem litLoop_suffix {env : Env V} (ha : Advancing env) (n : Nat) :
    ∀ (src t r : List Nat) (f : Option Err), litLoop env n src t = some (r, f) → r <:+ src := by
  induction n with
  | zero =>
    intro src t r f h
    cases t with
    | nil => simp [litLoop] at h; rw [← h.1]; exact List.suffix_refl _
    | cons c cs => simp [litLoop] at h
  | succ n ih =>
    intro src t r f h
    cases t with
    | nil => simp [litLoop] at h; rw [← h.1]; exact List.suffix_refl _
    | cons c cs =>
      cases src with
      | nil => simp [litLoop] at h; rw [← h.1]; exact List.suffix_refl _
      | cons d ds =>
        simp only [litLoop] at h
        split at h
        · exact absurd h (by simp)
        · split at h
          · simp at h; rw [← h.1]; exact List.suffix_refl _
          · split at h
            · split at h
              · rename_i s' t' h1 h2
                exact (ih _ _ _ _ h).trans (ha.skip _ _ h1)
              · exact absurd h (by simp)
            · split at h
              · simp at h; rw [← h.1]; exact List.suffix_refl _
              · exact suffix_cons_of (ih _ _ _ _ h)

/-- Every event of the history leaves a suffix of the position it started from. -/
def EventsAdvance (evs : List (Event V)) : Prop := ∀ ev ∈ evs, eventTo ev <:+ eventFrom ev

theorem EventsAdvance.snoc {evs : List (Event V)} {ev : Event V} (h : EventsAdvance evs)
    (he : eventTo ev <:+ eventFrom ev) : EventsAdvance (evs ++ [ev]) := by
  intro x hx
  rcases List.mem_append.1 hx with hx | hx
  · exact h x hx
  · simp at hx; rw [hx]; exact he

theorem onVisit_events {st st' : FH V} {id : Nat} {res : Res (V × List Nat)} (h : st.onVisit id res = some st') :
    st'.events = st.events ++ [Event.visit id st.src res] := by
  rcases onVisit_cases h with ⟨e, _, rfl⟩ | ⟨v, r, _, rfl⟩ <;> rfl

theorem visit_advance {st : FH V} {id : Nat} {res : Res (V × List Nat)}
    (h : ∀ v r, res = .ok (v, r) → r <:+ st.src) :
    eventTo (Event.visit id st.src res) <:+ eventFrom (Event.visit id st.src res) := by
  cases res with
  | ub => exact List.suffix_refl _
  | err e => exact List.suffix_refl _
  | ok a => exact h a.1 a.2 rfl

theorem enter_src {env : Env V} {st st' : FH V} {id : Nat} (he : st.enter env id = some st') :
    st'.src = st.src := by
  unfold FH.enter FH.setVisited at he
  split at he
  · simp only [Option.some.injEq] at he
    rw [← he]; rfl
  · split at he
    · exact absurd he (by simp)
    · rename_i v _
      dsimp only at he
      have key : (if v = true then st.onError .invalidFormatString else st).src = st.src := by
        split <;> rfl
      generalize (if v = true then st.onError .invalidFormatString else st) = st1 at he key
      split at he
      · simp only [Option.some.injEq] at he
        rw [← he]; exact key
      · split at he
        · exact absurd he (by simp)
        · simp only [Option.some.injEq] at he
          rw [← he]; exact key

theorem advance_preserved {env : Env V} (ha : Advancing env) :
    Preserved (runHandler env) (fun st => EventsAdvance st.events) where
  lit st t st' h hl := by
    obtain ⟨s, f, hlit, rfl⟩ := onLiteral_cases hl
    exact h.snoc (litLoop_suffix ha _ _ _ _ _ hlit)
  auto st h := h
  man st id h := h
  field st id pos st' h hf := by
    simp only [runHandler, FH.onField] at hf
    split at hf
    · exact absurd hf (by simp)
    · rename_i st1 h1
      have he := enter_events h1
      split at hf
      · rw [onVisit_events hf, he]
        exact h.snoc (visit_advance fun v r hr => ha.dflt _ _ _ _ hr)
      · simp at hf; rw [← hf, he]; exact h
  specs st id pos st' p h hf := by
    simp only [runHandler, FH.onSpecs] at hf
    split at hf
    · exact absurd hf (by simp)
    · rename_i st1 h1
      have he := enter_events h1
      split at hf
      · split at hf
        · simp only [Option.map_eq_some_iff, Prod.mk.injEq] at hf
          obtain ⟨a, ha', rfl, _⟩ := hf
          rw [onVisit_events ha']
          show EventsAdvance (st1.events ++ _)
          rw [he]
          exact h.snoc (visit_advance fun v r hr => ha.custom _ _ _ _ _ (custom_ok hr))
        · simp at hf; rw [← hf.1]; show EventsAdvance st1.events; rw [he]; exact h
      · split at hf
        · exact absurd hf (by simp)
        · split at hf
          · split at hf
            · simp at hf; rw [← hf.1, he]; exact h
            · split at hf
              · simp only [Option.map_eq_some_iff, Prod.mk.injEq] at hf
                obtain ⟨a, ha', rfl, _⟩ := hf
                rw [onVisit_events ha']
                show EventsAdvance (st1.events ++ _)
                rw [he]
                exact h.snoc (visit_advance fun v r hr => ha.specs _ _ _ _ _ hr)
              · simp at hf; rw [← hf.1]; show EventsAdvance st1.events; rw [he]; exact h
          · simp at hf; rw [← hf.1]; show EventsAdvance st1.events; rw [he]; exact h
  err st h := h

theorem general_advance {env : Env V} (ha : Advancing env) {fmt src : List Nat} {st : FH V}
    (hc : env.count < 64) (h : vscanGeneral env fmt src = some st) : EventsAdvance st.events := by
  unfold vscanGeneral at h
  split at h
  · exact absurd h (by simp)
  · rename_i st1 h1
    have g := parseLoop_inv (advance_preserved ha) _ _ _ _ (by intro ev hev; simp [FH.init] at hev) h1
    rw [checkExhausted_cases hc] at h
    simp only [Option.some.injEq] at h
    rw [← h]
    split
    · exact g
    · exact g

/-- The units consumed by an event. -/
def consumed (ev : Event V) : Nat := (eventFrom ev).length - (eventTo ev).length

theorem leads_advance {s t : List Nat} {evs : List (Event V)} (h : Leads s evs t) (ha : EventsAdvance evs) :
    t <:+ s ∧ s.length = t.length + (evs.map consumed).sum := by
  induction h with
  | nil => exact ⟨List.suffix_refl _, by simp⟩
  | snoc e hl hfrom ih =>
    rename_i evs0 m
    have h1 := ih fun ev hev => ha ev (List.mem_append_left _ hev)
    have h2 : eventTo e <:+ eventFrom e := ha e (List.mem_append_right _ (by simp))
    refine ⟨h2.trans (hfrom ▸ h1.1), ?_⟩
    rw [List.map_append, List.sum_append]
    simp only [List.map_cons, List.map_nil, List.sum_cons, List.sum_nil, Nat.add_zero]
    have h3 := h2.length_le
    have h4 : consumed e = (eventFrom e).length - (eventTo e).length := rfl
    rw [h4, h1.2, ← hfrom]
    omega

/-! ### Literal text -/

/-- Format text the matcher handles as documented: whitespace, or characters of one unit. -/
def Simple (e : Enc) (cp : Nat) : Prop := IsScalar cp ∧ (isSpace cp = true ∨ (encode e cp).length = 1)

theorem encode_single {e : Enc} {cp : Nat} (h : IsScalar cp) (h1 : (encode e cp).length = 1) :
    ∃ c, encode e cp = [c] ∧ cpLength e c = 1 := by
  obtain ⟨c, cs, hc, hl, _⟩ := encode_head e cp h
  have : cs = [] := by
    rw [hc] at h1; simpa using h1
  subst this
  exact ⟨c, hc, hl⟩

theorem encode_inj_single {e : Enc} {a b : Nat} {c : Nat} {ds : List Nat} (ha : IsScalar a) (hb : IsScalar b)
    (h1 : encode e a = [c]) (h2 : encode e b = c :: ds) : a = b := by
  have hl1 : (encode e a).length = 1 := by rw [h1]; rfl
  obtain ⟨c', hc', hcl⟩ := encode_single ha hl1
  rw [h1] at hc'
  simp at hc'
  subst hc'
  obtain ⟨c2, cs2, hc2, hl2, hd2⟩ := encode_head e b hb
  rw [h2] at hc2
  simp only [List.cons.injEq] at hc2
  obtain ⟨rfl, rfl⟩ := hc2
  rw [hcl] at hl2
  have : ds = [] := by simpa using hl2.symm
  subst this
  have g1 := getNext_encode e a ha []
  have g2 := getNext_encode e b hb []
  rw [h1] at g1
  rw [h2] at g2
  rw [g1] at g2
  simpa using g2

theorem dropWhile_scalar {cps : List Nat} (h : ∀ cp ∈ cps, IsScalar cp) (p : Nat → Bool) :
    ∀ cp ∈ cps.dropWhile p, IsScalar cp :=
  fun cp hcp => h cp ((List.dropWhile_suffix p).subset hcp)

theorem scalar_ne_invalid {cp : Nat} (h : IsScalar cp) : cp ≠ invalidCp := by
  have := h.1
  unfold invalidCp; omega

theorem isSpace_dropWhile_idem (t : List Nat) : ∀ s : List Nat, matchText (t.dropWhile isSpace) (s.dropWhile isSpace) =
    matchText t (s.dropWhile isSpace) := by
  induction t with
  | nil => intro s; rfl
  | cons c t ih =>
    intro s
    by_cases hc : isSpace c = true
    · have hdd : (s.dropWhile isSpace).dropWhile isSpace = s.dropWhile isSpace := by
        induction s with
        | nil => rfl
        | cons d s ihs =>
          by_cases hd : isSpace d = true
          · simp only [List.dropWhile_cons, hd, if_true]; exact ihs
          · simp [hd]
      simp only [List.dropWhile_cons, hc, if_true]
      rw [ih s]
      simp only [matchText, hc, if_true, hdd]
    · simp [hc]

theorem matchText_nil_spaces : ∀ (t r : List Nat), matchText t [] = some r → r = [] ∧ ∀ c ∈ t, isSpace c = true := by
  intro t
  induction t with
  | nil => intro r h; simp [matchText] at h; exact ⟨h, by simp⟩
  | cons c t ih =>
    intro r h
    simp only [matchText] at h
    split at h
    · rename_i hc
      have := ih r h
      refine ⟨this.1, ?_⟩
      intro x hx
      rcases List.mem_cons.1 hx with rfl | hx
      · exact hc
      · exact this.2 x hx
    · exact absurd h (by simp)

/-- The text does not end in whitespace. -/
def EndsInText (t : List Nat) : Prop := ∀ c, t.getLast? = some c → isSpace c = false

theorem EndsInText.tail {c : Nat} {t : List Nat} (h : EndsInText (c :: t)) : EndsInText t := by
  intro x hx
  apply h
  cases t with
  | nil => simp at hx
  | cons a t => rw [List.getLast?_cons_cons]; exact hx

theorem EndsInText.dropWhile {t : List Nat} (h : EndsInText t) (p : Nat → Bool) : EndsInText (t.dropWhile p) := by
  induction t with
  | nil => exact h
  | cons a t ih =>
    rw [List.dropWhile_cons]
    split
    · exact ih h.tail
    · exact h

/-- The literal loop on well-formed text and source. -/
theorem litLoop_spec (env : Env V)
    (hsk : ∀ cps : List Nat, (∀ cp ∈ cps, IsScalar cp) →
      env.skip (encodes env.enc cps) = some (encodes env.enc (cps.dropWhile isSpace))) :
    ∀ (n : Nat) (t s : List Nat), (∀ cp ∈ t, Simple env.enc cp) → (∀ cp ∈ s, IsScalar cp) →
      (encodes env.enc t).length ≤ n →
      ∃ r f, litLoop env n (encodes env.enc s) (encodes env.enc t) = some (encodes env.enc r, f) ∧
        (∀ cp ∈ r, IsScalar cp) ∧ (f = none ∨ f = some .invalidLiteral) ∧
        (f = none → matchText t s = some r) ∧
        (∀ r', matchText t s = some r' → r' ≠ [] ∨ EndsInText t → f = none) := by
  intro n
  induction n with
  | zero =>
    intro t s ht hs hn
    have : t = [] := (encodes_eq_nil env.enc t).1 (List.length_eq_zero_iff.1 (by omega))
    subst this
    exact ⟨s, none, by simp [litLoop, encodes_nil], hs, Or.inl rfl, fun _ => rfl, fun _ _ _ => rfl⟩
  | succ n ih =>
    intro t s ht hs hn
    cases t with
    | nil => exact ⟨s, none, by simp [litLoop, encodes_nil], hs, Or.inl rfl, fun _ => rfl, fun _ _ _ => rfl⟩
    | cons a t =>
      have haS := ht a (by simp)
      have htS : ∀ cp ∈ t, Simple env.enc cp := fun cp hcp => ht cp (by simp [hcp])
      obtain ⟨c, cs, hc, _, _⟩ := encode_head env.enc a haS.1
      have htext : encodes env.enc (a :: t) = c :: (cs ++ encodes env.enc t) := by
        rw [encodes_cons, hc]; rfl
      cases s with
      | nil =>
        refine ⟨[], some .invalidLiteral, ?_, by simp, Or.inr rfl, by simp, ?_⟩
        · rw [htext]; simp [encodes_nil, litLoop]
        · intro r' hr' hor
          have hsp := matchText_nil_spaces _ _ hr'
          exfalso
          rcases hor with h | h
          · exact h hsp.1
          · obtain ⟨x, hx⟩ : ∃ x, (a :: t).getLast? = some x := ⟨_, List.getLast?_eq_some_getLast (by simp)⟩
            have h1 := h x hx
            rw [hsp.2 x (List.mem_of_getLast? hx)] at h1; cases h1
      | cons b s =>
        have hbS := hs b (by simp)
        have hsS : ∀ cp ∈ s, IsScalar cp := fun cp hcp => hs cp (by simp [hcp])
        obtain ⟨d, ds, hd, _, _⟩ := encode_head env.enc b hbS
        have hsrc : encodes env.enc (b :: s) = d :: (ds ++ encodes env.enc s) := by
          rw [encodes_cons, hd]; rfl
        have hgn : getNext env.enc (c :: (cs ++ encodes env.enc t)) = some (encodes env.enc t, a) := by
          rw [← htext, encodes_cons]; exact getNext_encode env.enc a haS.1 _
        rw [htext, hsrc]
        simp only [litLoop, hgn, isSpace_eq]
        rw [if_neg (scalar_ne_invalid haS.1)]
        have hlen : (encodes env.enc t).length ≤ n := by
          rw [htext] at hn; simp only [List.length_cons, List.length_append] at hn; omega
        by_cases hsp : isSpace a = true
        · rw [if_pos hsp, ← hsrc, hsk _ hs,
            readWhileSpace_encodes env.enc .contiguous t (fun cp hcp => (htS cp hcp).1) (by cases env.enc <;> trivial)]
          simp only
          have hdwS : ∀ cp ∈ t.dropWhile isSpace, Simple env.enc cp :=
            fun cp hcp => htS cp ((List.dropWhile_suffix _).subset hcp)
          have hlen2 : (encodes env.enc (t.dropWhile isSpace)).length ≤ n := by
            refine Nat.le_trans ?_ hlen
            have h2 : encodes env.enc t =
                encodes env.enc (t.takeWhile isSpace) ++ encodes env.enc (t.dropWhile isSpace) := by
              rw [← encodes_append, List.takeWhile_append_dropWhile]
            rw [h2, List.length_append]; omega
          obtain ⟨r, f, h1, h2, h3, h4, h5⟩ := ih _ ((b :: s).dropWhile isSpace) hdwS (dropWhile_scalar hs _) hlen2
          refine ⟨r, f, h1, h2, h3, ?_, ?_⟩
          · intro hf
            rw [matchText, if_pos hsp, ← isSpace_dropWhile_idem]
            exact h4 hf
          · intro r' hr' hor
            rw [matchText, if_pos hsp, ← isSpace_dropWhile_idem] at hr'
            exact h5 r' hr' (hor.imp id fun h => h.tail.dropWhile _)
        · rw [if_neg hsp]
          obtain ⟨c', hc', _⟩ := encode_single haS.1 (haS.2.resolve_left hsp)
          rw [hc] at hc'
          simp only [List.cons.injEq] at hc'
          obtain ⟨rfl, rfl⟩ := hc'
          by_cases hdc : d = c
          · subst hdc
            rw [if_neg (by simp)]
            have hab := encode_inj_single haS.1 hbS hc hd
            subst hab
            rw [hc] at hd
            simp only [List.cons.injEq, true_and] at hd
            subst hd
            simp only [List.nil_append]
            obtain ⟨r, f, h1, h2, h3, h4, h5⟩ := ih t s htS hsS hlen
            refine ⟨r, f, h1, h2, h3, ?_, ?_⟩
            · intro hf
              rw [matchText, if_neg hsp]
              simp only [if_true]
              exact h4 hf
            · intro r' hr' hor
              rw [matchText, if_neg hsp] at hr'
              simp only [if_true] at hr'
              exact h5 r' hr' (hor.imp id fun h => h.tail)
          · rw [if_pos hdc]
            refine ⟨b :: s, some .invalidLiteral, by rw [← hsrc], hs, Or.inr rfl, by simp, ?_⟩
            intro r' hr'
            exfalso
            rw [matchText, if_neg hsp] at hr'
            split at hr'
            · rename_i hba
              subst hba
              rw [hc] at hd
              simp only [List.cons.injEq] at hd
              exact hdc hd.1.symm
            · exact absurd hr' (by simp)


/-- For non-whitespace text the specification is equality of a prefix. -/
theorem matchText_text (t : List Nat) (ht : ∀ c ∈ t, isSpace c = false) :
    ∀ s r : List Nat, matchText t s = some r ↔ s = t ++ r := by
  induction t with
  | nil => intro s r; simp [matchText]
  | cons c t ih =>
    intro s r
    have hc := ht c (by simp)
    have ih := ih fun x hx => ht x (by simp [hx])
    cases s with
    | nil => simp [matchText, hc]
    | cons d s =>
      simp only [matchText, hc, Bool.false_eq_true, if_false, List.cons_append, List.cons.injEq]
      by_cases hd : d = c
      · simp only [hd, if_true, true_and]; exact ih s r
      · simp [hd]

theorem matchText_append (a b : List Nat) : ∀ s, matchText (a ++ b) s = (matchText a s).bind (matchText b) := by
  induction a with
  | nil => intro s; rfl
  | cons c a ih =>
    intro s
    simp only [List.cons_append, matchText]
    split
    · exact ih _
    · cases s with
      | nil => rfl
      | cons d s =>
        simp only
        split
        · exact ih _
        · rfl

theorem encode_second {e : Enc} {cp c c2 : Nat} {cs : List Nat} (h : IsScalar cp) (hc : encode e cp = c :: c2 :: cs) :
    cpLength e c2 = 0 := by
  cases e with
  | utf8 =>
    have hb : ∀ b ∈ utf8 cp, b < 256 := utf8_bytes cp h.1
    have hcc : utf8 cp = c :: c2 :: cs := hc
    have h2 : c2 < 256 := hb c2 (by rw [hcc]; simp)
    show cpLength8 c2 = 0
    rw [cpLength8_eq c2 h2]
    have hr : 0x80 ≤ c2 ∧ c2 < 0xC0 := by
      rcases utf8_cases cp with ⟨_, hx⟩ | ⟨_, hx⟩ | ⟨_, hx⟩ | ⟨_, hx⟩ <;> rw [hx] at hcc <;>
        simp at hcc <;> omega
    rw [if_neg (by omega), if_pos (by omega)]
  | utf16 =>
    have hcc : utf16 cp = c :: c2 :: cs := hc
    have hl := h.1
    simp only [utf16] at hcc
    split at hcc
    · simp at hcc
    · simp only [List.cons.injEq] at hcc
      show cpLength16 c2 = 0
      rw [cpLength16_eq c2 (by omega)]
      rw [if_neg (by omega), if_pos (by omega)]
  | utf32 => simp [encode] at hc

/-- Multi-unit characters never match: after the first unit the next one cannot start a character. -/
theorem litLoop_multi (env : Env V) (n : Nat) (cp : Nat) (hcp : IsScalar cp) (hsp : isSpace cp = false)
    (hm : (encode env.enc cp).length > 1) (src t r : List Nat) (f : Option Err)
    (h : litLoop env n src (encode env.enc cp ++ t) = some (r, f)) : f ≠ none := by
  obtain ⟨c, cs, hc, hl, hdc⟩ := encode_head env.enc cp hcp
  obtain ⟨c2, cs2, rfl⟩ : ∃ c2 cs2, cs = c2 :: cs2 := by
    cases cs with
    | nil => rw [hc] at hm; simp at hm
    | cons c2 cs2 => exact ⟨c2, cs2, rfl⟩
  have htrail : cpLength env.enc c2 = 0 := encode_second hcp hc
  cases n with
  | zero => rw [hc] at h; simp [litLoop] at h
  | succ n =>
  have hgn : getNext env.enc (c :: (c2 :: cs2 ++ t)) = some (t, cp) := by
    have := getNext_encode env.enc cp hcp t
    rw [hc] at this; exact this
  rw [hc, List.cons_append] at h
  cases src with
  | nil => simp [litLoop] at h; rw [← h.2]; simp
  | cons d ds =>
    simp only [litLoop, hgn, isSpace_eq, hsp] at h
    rw [if_neg (scalar_ne_invalid hcp), if_neg (by simp)] at h
    split at h
    · simp at h; rw [← h.2]; simp
    · cases n with
      | zero => simp [litLoop] at h
      | succ n =>
      cases ds with
      | nil => simp [litLoop] at h; rw [← h.2]; simp
      | cons d2 ds =>
        have : ∃ w, getNext env.enc (c2 :: (cs2 ++ t)) = some (w, invalidCp) := by
          unfold getNext
          simp only [htrail]
          exact ⟨_, rfl⟩
        obtain ⟨w, hw⟩ := this
        rw [List.cons_append] at h
        simp only [litLoop, hw, if_true] at h
        simp at h; rw [← h.2]; simp

/-! ### The compile-time checker always finishes -/

structure CTEnvOk (env : CTEnv) (fmt : List Nat) : Prop where
  types : ∀ ty ∈ env.types, ty ≠ .none ∧ ty ≠ .custom ∧ (ty.category ≠ none ∨ 76 ∉ fmt)

theorem validate_some (e : Enc) (s : List Nat) : ∃ b, validateUnicode e s = some b := by
  exact validate_total_aux e s.length s (Nat.le_refl _)

theorem ct_literal_total (env : CTEnv) (c : CT) (t : List Nat) : ∃ c', CT.onLiteral env c t = some c' := by
  obtain ⟨b, h⟩ := validate_some env.enc t
  exact ⟨_, by rw [CT.onLiteral, h]; rfl⟩

theorem ct_specs_total {env : CTEnv} {fmt : List Nat} (ho : CTEnvOk env fmt) (c : CT) (id : Nat) (pos : List Nat) (hin : pos <:+ fmt) :
    ∃ c' p, CT.onSpecs env c id pos = some (c', p) ∧ p <:+ pos := by
  simp only [CT.onSpecs]
  split
  · exact ⟨_, _, rfl, List.suffix_refl _⟩
  · rename_i ty hty
    have hm := ho.types ty (List.mem_of_getElem? hty)
    split
    · exact ⟨_, _, rfl, List.suffix_refl _⟩
    · obtain ⟨setter, p, hp, hps⟩ := parseSpecs_steps env.cfg env.enc ty ⟨{}, false⟩ pos
        (hm.2.2.imp_right fun h hx => h (hin.subset hx))
      rw [hp]
      simp only
      obtain ⟨b, hb⟩ : ∃ b, compileTypeCheck ty setter.specs = some b := by
        obtain ⟨h1, h2, _⟩ := hm
        cases ty <;> first | exact ⟨_, rfl⟩ | exact absurd rfl h1 | exact absurd rfl h2
      rw [hb]
      exact ⟨_, _, rfl, hps⟩

theorem ct_parseArgId_total {env : CTEnv} (c : CT) (s : List Nat) (hs : s ≠ []) :
    ∃ c' id p, parseArgId (compileHandler env) c s = some (c', id, p) ∧ p <:+ s := by
  cases s with
  | nil => exact absurd rfl hs
  | cons x xs =>
    simp only [parseArgId]
    split
    · exact ⟨_, _, _, rfl, List.suffix_refl _⟩
    · split
      · exact ⟨_, _, _, rfl, List.suffix_refl _⟩
      · have hsuf : (if x ≠ 48 then simpleIntLoop 0 (x :: xs) else ((0 : Int), xs)).2 <:+ x :: xs := by
          split
          · exact simpleIntLoop_suffix _ _
          · exact List.suffix_cons x xs
        generalize (if x ≠ 48 then simpleIntLoop 0 (x :: xs) else ((0 : Int), xs)) = w at hsuf
        obtain ⟨w1, w2⟩ := w
        cases w2 with
        | nil => exact ⟨_, _, _, rfl, hsuf⟩
        | cons d ds =>
          dsimp only
          split
          · exact ⟨_, _, _, rfl, hsuf⟩
          · exact ⟨_, _, _, rfl, hsuf⟩

theorem ct_parseField_total {env : CTEnv} {fmt : List Nat} (ho : CTEnvOk env fmt) (c : CT) (s : List Nat) (hin : s <:+ fmt) :
    ∃ c' p, parseField (compileHandler env) c s = some (c', p) ∧ p <:+ s := by
  unfold parseField
  split
  · exact ⟨_, _, rfl, List.suffix_refl _⟩
  · exact ⟨_, _, rfl, List.suffix_cons _ _⟩
  · obtain ⟨c', h⟩ := ct_literal_total env c [123]
    have h' : (compileHandler env).onLiteral c [123] = some c' := h
    rw [h']
    exact ⟨_, _, rfl, List.suffix_cons _ _⟩
  · rename_i n1 n2 n3
    obtain ⟨c1, id, p, h1, h2⟩ := ct_parseArgId_total (env := env) c s (fun h => n1 h)
    rw [h1]; dsimp only
    split
    · exact ⟨_, _, rfl, by simp⟩
    · exact ⟨_, _, rfl, cons_suffix h2⟩
    · exact ⟨_, _, rfl, h2⟩
    · rename_i q _
      obtain ⟨c2, p2, h3, h4⟩ := ct_specs_total ho c1 id q ((cons_suffix h2).trans hin)
      have h3' : (compileHandler env).onSpecs c1 id q = some (c2, p2) := h3
      rw [h3']; dsimp only
      have h5 := h4.trans (cons_suffix h2)
      split
      · exact ⟨_, _, rfl, cons_suffix h5⟩
      · exact ⟨_, _, rfl, h5⟩
    · exact ⟨_, _, rfl, h2⟩

theorem ct_parseLoop_total {env : CTEnv} {fmt : List Nat} (ho : CTEnvOk env fmt) : ∀ (n : Nat) (c : CT) (s : List Nat), s <:+ fmt → s.length < n →
    ∃ c', parseLoop (compileHandler env) n c s = some c' := by
  intro n
  induction n with
  | zero => intro c s _ h; omega
  | succ n ih =>
    intro c s hin hn
    obtain ⟨c1, h1⟩ := ct_literal_total env c (s.takeWhile fun c => ! isBrace c)
    have h1' : (compileHandler env).onLiteral c (s.takeWhile fun c => ! isBrace c) = some c1 := h1
    have hdw : s.dropWhile (fun c => ! isBrace c) <:+ s := List.dropWhile_suffix _
    unfold parseLoop
    dsimp only
    split
    · exact ⟨_, h1'⟩
    · rename_i x xs hd
      rw [hd] at hdw
      have hlen : xs.length < s.length := by have := hdw.length_le; simp only [List.length_cons] at this; omega
      split
      · rw [h1']; dsimp only
        obtain ⟨c2, p, h4, h5⟩ := ct_parseField_total ho c1 xs ((cons_suffix hdw).trans hin)
        rw [h4]; dsimp only
        split
        · exact ⟨_, rfl⟩
        · have := h5.length_le
          exact ih c2 p (h5.trans ((cons_suffix hdw).trans hin)) (by omega)
      · split
        · rename_i rest
          obtain ⟨c2, h4⟩ := ct_literal_total env c (s.takeWhile (fun c => ! isBrace c) ++ [125])
          have h4' : (compileHandler env).onLiteral c (s.takeWhile (fun c => ! isBrace c) ++ [125]) = some c2 := h4
          rw [h4']; dsimp only
          simp only [List.length_cons] at hlen
          exact ih c2 rest ((cons_suffix (cons_suffix hdw)).trans hin) (by omega)
        · exact ⟨_, rfl⟩

theorem compileCheck_total {env : CTEnv} {fmt : List Nat} (ho : CTEnvOk env fmt) : ∃ c, compileCheck env fmt = some c := by
  obtain ⟨c, h⟩ := ct_parseLoop_total ho (parseFuel env.types.length fmt)
    ⟨0, List.replicate env.types.length false, false, false, false⟩ fmt (List.suffix_refl _) (by
      have : parseFuel env.types.length fmt = env.types.length * (fmt.length + 2) + 2 * (fmt.length + 2) := by
        unfold parseFuel; rw [Nat.add_mul]
      rw [this]; omega)
  exact ⟨_, by rw [compileCheck, h]; rfl⟩

end Scn
