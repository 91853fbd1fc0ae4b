import Verif.Lemmas.Chrono10
import Verif.Lemmas.Driver4
/-
Where the parser of chrono formats stops.
-/
namespace Scn
open Spec

theorem specifier_ascii {c : Nat} {x : ChronoCall} (h : chronoSpecifier c = some x ∨ chronoSpecifierE c = some x ∨ chronoSpecifierO c = some x) : c < 128 := by
  rcases h with h | h | h
  · unfold chronoSpecifier at h
    split at h <;> first | decide | cases h
  · unfold chronoSpecifierE at h
    split at h <;> first | decide | cases h
  · unfold chronoSpecifierO at h
    split at h <;> first | decide | cases h

/-- A conversion is written in ASCII. -/
theorem conversion_ascii {q r : List Nat} {c : ChronoCall} (h : chronoConversion q = (some c, r)) : ∃ a, q = a ++ r ∧ ∀ u ∈ a, u < 128 := by
  unfold chronoConversion at h
  split at h
  · cases h
  · cases h
  · rename_i d r'
    split at h
    · rename_i hd
      split at h
      · cases h
      · cases h
        refine ⟨[46, d, 83], rfl, ?_⟩
        rcases hd with rfl | rfl <;> decide
      · cases h
    · split at h
      · rename_i hd
        cases h
        exact ⟨[46, d], rfl, by subst hd; decide⟩
      · cases h
  · cases h
  · rename_i d r'
    have h1 := congrArg Prod.fst h
    have h2 := congrArg Prod.snd h
    dsimp only at h1 h2
    have := specifier_ascii (Or.inr (Or.inl h1))
    exact ⟨[69, d], by rw [← h2]; rfl, by intro u hu; simp at hu; omega⟩
  · cases h
  · rename_i d r'
    have h1 := congrArg Prod.fst h
    have h2 := congrArg Prod.snd h
    dsimp only at h1 h2
    have := specifier_ascii (Or.inr (Or.inr h1))
    exact ⟨[79, d], by rw [← h2]; rfl, by intro u hu; simp at hu; omega⟩
  · rename_i d r' _ _ _ _ _ _
    have h1 := congrArg Prod.fst h
    have h2 := congrArg Prod.snd h
    dsimp only at h1 h2
    have := specifier_ascii (Or.inl h1)
    exact ⟨[d], by rw [← h2]; rfl, by intro u hu; simp at hu; omega⟩

/-- An ASCII unit at the start of an encoded text is a character. -/
theorem encodes_ascii_head {e : Enc} {cps : List Nat} (hs : ∀ c ∈ cps, IsScalar c) {u : Nat} {t : List Nat} (h : encodes e cps = u :: t) (hu : u < 128) :
    ∃ cps', cps = u :: cps' ∧ t = encodes e cps' := by
  cases cps with
  | nil => cases h
  | cons c cps =>
    rw [encodes_cons] at h
    have hc := hs c (by simp)
    obtain ⟨v, vs, hv⟩ := encode_cons e c
    rw [hv] at h
    simp only [List.cons_append, List.cons.injEq] at h
    obtain ⟨rfl, h2⟩ := h
    have := encode_mem_ascii e c v hc (by rw [hv]; simp) hu
    subst this
    rw [encode_ascii e c hu] at hv
    cases hv
    exact ⟨cps, rfl, h2.symm⟩

theorem encodes_ascii_prefix {e : Enc} : ∀ {a cps t : List Nat}, (∀ c ∈ cps, IsScalar c) → encodes e cps = a ++ t → (∀ u ∈ a, u < 128) →
    ∃ cps', cps = a ++ cps' ∧ t = encodes e cps'
  | [], cps, _, _, h, _ => ⟨cps, rfl, h.symm⟩
  | u :: a, cps, t, hs, h, ha => by
    obtain ⟨cps', rfl, h'⟩ := encodes_ascii_head hs h (ha u (by simp))
    obtain ⟨cps'', rfl, h''⟩ := encodes_ascii_prefix (fun c hc => hs c (by simp [hc])) h'.symm (fun v hv => ha v (by simp [hv]))
    exact ⟨cps'', rfl, h''⟩

theorem ascii_cpLength (e : Enc) {c : Nat} (h : c < 128) : cpLength e c = 1 :=
  single_cpLength e ⟨by omega, by omega⟩ (encode_ascii e c h)

/-- A position in a well-formed format whose last character is one code unit, or one at a unit that starts no
    character. -/
def EndsPlain (e : Enc) (p : List Nat) : Prop :=
  (∃ cps, (∀ c ∈ cps, IsScalar c) ∧ p = encodes e cps ∧ ∀ c, cps.getLast? = some c → (encode e c).length = 1) ∨ ∃ u q, p = u :: q ∧ cpLength e u = 0

theorem getLast_suffix {a b : List Nat} {c : Nat} (h : b.getLast? = some c) : (a ++ b).getLast? = some c := by
  rw [List.getLast?_append, h]; rfl

theorem endsPlain_unit {e : Enc} {ch : Nat} {q : List Nat} (h : EndsPlain e (ch :: q)) (h1 : cpLength e ch = 1) : EndsPlain e q := by
  rcases h with ⟨cps, hs, hp, hlast⟩ | ⟨u, q', hp, hu⟩
  · cases cps with
    | nil => cases hp
    | cons c cps =>
      obtain ⟨v, vs, hv, hl, _⟩ := encode_head e c (hs c (by simp))
      rw [encodes_cons, hv] at hp
      simp only [List.cons_append, List.cons.injEq] at hp
      obtain ⟨rfl, rfl⟩ := hp
      rw [h1] at hl
      have : vs = [] := by cases vs with
        | nil => rfl
        | cons _ _ => simp at hl
      subst this
      exact Or.inl ⟨cps, fun c hc => hs c (by simp [hc]), rfl, fun d hd => hlast d (getLast_suffix (a := [c]) hd)⟩
  · cases hp
    omega

theorem tame_endsPlain (e : Enc) : Tame e (EndsPlain e) where
  tail {ch q} h _ h1 := by
    refine endsPlain_unit h ?_
    rcases h1 with h1 | h1
    · exact ascii_cpLength e (by omega)
    · exact h1
  conv {q c r} h hcv := by
    obtain ⟨a, rfl, ha⟩ := conversion_ascii hcv
    rcases h with ⟨cps, hs, hp, hlast⟩ | ⟨u, q', hp, hu⟩
    · obtain ⟨cps', rfl, rfl⟩ := encodes_ascii_prefix (a := 37 :: a) hs hp.symm (by intro u hu; simp at hu; rcases hu with rfl | hu; decide; exact ha u hu)
      exact Or.inl ⟨cps', fun c hc => hs c (by simp [hc]), rfl, fun d hd => hlast d (getLast_suffix hd)⟩
    · cases hp
      rw [ascii_cpLength e (by decide)] at hu
      omega
  multi {ch q cp} h h1 hle hcp := by
    rcases h with ⟨cps, hs, hp, hlast⟩ | ⟨u, q', hp, hu⟩
    · cases cps with
      | nil => cases hp
      | cons c cps =>
        have hc := hs c (by simp)
        have hs' : ∀ c ∈ cps, IsScalar c := fun c hc => hs c (by simp [hc])
        obtain ⟨v, vs, hv, hl, hd⟩ := encode_head e c hc
        have hp' := hp
        rw [encodes_cons, hv] at hp'
        simp only [List.cons_append, List.cons.injEq] at hp'
        obtain ⟨rfl, rfl⟩ := hp'
        have hdrop : (ch :: (vs ++ encodes e cps)).drop (cpLength e ch) = encodes e cps := by
          rw [hl, ← List.cons_append, List.drop_left]
        rw [hdrop]
        cases cps with
        | nil =>
          have := hlast c rfl
          rw [hv, ← hl] at this
          omega
        | cons c2 cps =>
          have hlast' : ∀ d, (c2 :: cps).getLast? = some d → (encode e d).length = 1 := fun d hd => hlast d (getLast_suffix (a := [c]) hd)
          split
          · exact Or.inl ⟨c2 :: cps, hs', rfl, hlast'⟩
          · obtain ⟨w, ws, hw, hwl, _⟩ := encode_head e c2 (hs' c2 (by simp))
            refine ⟨w, ws ++ encodes e cps, by rw [encodes_cons, hw]; rfl, ?_⟩
            cases ws with
            | nil => exact Or.inl ⟨cps, fun c hc => hs' c (by simp [hc]), rfl, fun d hd => hlast' d (getLast_suffix (a := [c2]) hd)⟩
            | cons x xs => exact Or.inr ⟨x, xs ++ encodes e cps, rfl, encode_second (hs' c2 (by simp)) hw⟩
    · cases hp
      omega

/-- The parser on a well-formed format whose last character is one code unit. -/
theorem formatCalls_wellFormed (e : Enc) (cps : List Nat) (hs : ∀ c ∈ cps, IsScalar c) (hlast : ∀ c, cps.getLast? = some c → (encode e c).length = 1) :
    ∃ xs p', formatCalls e (encodes e cps) = some (xs, p') ∧ p' <:+ encodes e cps :=
  formatCalls_tame e (tame_endsPlain e) _ (Or.inl ⟨cps, hs, rfl, hlast⟩) (by
    intro r hr
    exact endsPlain_unit (ch := 76) (Or.inl ⟨cps, hs, hr.symm, hlast⟩) (ascii_cpLength e (by decide)))

/-- The parser stops inside the format string. -/
theorem loop_suffix {σ : Type} (e : Enc) (h : ChronoHandler σ) (n : Nat) : ∀ st acc p st' p',
    chronoLoop e h n st acc p = some (st', p') → p' <:+ p := by
  have fin : ∀ st acc p st' p', chronoFinish h st acc p = some (st', p') → p' <:+ p := by
    intro st acc p st' p' hf
    unfold chronoFinish at hf
    obtain ⟨a, ha, hf⟩ := bind_some_iff.1 hf
    obtain ⟨b, hb, heq⟩ := Option.map_eq_some_iff.1 hf
    cases heq
    exact List.suffix_refl _
  induction n with
  | zero => intro st acc p st' p' hf; cases hf
  | succ n ih =>
    intro st acc p st' p' hf
    cases p with
    | nil => exact fin _ _ _ _ _ hf
    | cons ch q =>
      have hq : q <:+ ch :: q := List.suffix_cons _ _
      have hd := List.drop_suffix (cpLength e ch) (ch :: q)
      rw [chronoLoop] at hf
      split at hf
      · exact fin _ _ _ _ _ hf
      · split at hf
        · split at hf
          · obtain ⟨a, ha, hf⟩ := bind_some_iff.1 hf
            obtain ⟨b, hb, hf⟩ := bind_some_iff.1 hf
            exact (ih _ _ _ _ _ hf).trans hq
          · split at hf
            · obtain ⟨b, hb, heq⟩ := Option.map_eq_some_iff.1 hf
              cases heq; exact List.suffix_refl _
            · split at hf
              · exact (ih _ _ _ _ _ hf).trans hq
              · split at hf
                · obtain ⟨b, hb, heq⟩ := Option.map_eq_some_iff.1 hf
                  cases heq; exact List.nil_suffix
                · obtain ⟨cp, _, hf⟩ := bind_some_iff.1 hf
                  split at hf
                  · obtain ⟨a, ha, hf⟩ := bind_some_iff.1 hf
                    obtain ⟨b, hb, hf⟩ := bind_some_iff.1 hf
                    exact (ih _ _ _ _ _ hf).trans hd
                  · split at hf
                    · cases hf
                    · rename_i heq
                      rw [heq] at hd
                      exact (ih _ _ _ _ _ hf).trans ((List.suffix_cons _ _).trans hd)
        · obtain ⟨a, ha, hf⟩ := bind_some_iff.1 hf
          have hs := conversion_suffix q
          split at hf
          · rename_i heq
            rw [heq] at hs
            obtain ⟨b, hb, heq⟩ := Option.map_eq_some_iff.1 hf
            cases heq; exact hs.trans hq
          · rename_i heq
            rw [heq] at hs
            obtain ⟨b, hb, hf⟩ := bind_some_iff.1 hf
            split at hf
            · exact (ih _ _ _ _ _ hf).trans (hs.trans hq)
            · cases hf; exact hs.trans hq

theorem parse_suffix {σ : Type} (e : Enc) (h : ChronoHandler σ) (st : σ) (fmt : List Nat) {st' : σ} {p : List Nat}
    (hf : parseChrono e h st fmt = some (st', p)) : p <:+ fmt := by
  unfold parseChrono at hf
  have err : ∀ {st : σ} {q : List Nat}, ((h.call st .error).map fun st => (st, q)) = some (st', p) → p = q := by
    intro st q hf
    obtain ⟨b, hb, heq⟩ := Option.map_eq_some_iff.1 hf
    cases heq; rfl
  cases fmt with
  | nil => rw [err hf]; exact List.suffix_refl _
  | cons c r =>
    dsimp only at hf
    split at hf
    · rw [err hf]; exact List.suffix_refl _
    · split at hf
      · obtain ⟨a, ha, hf⟩ := bind_some_iff.1 hf
        split at hf
        · rw [err hf]; exact List.nil_suffix
        · split at hf
          · rw [err hf]; exact List.suffix_cons _ _
          · exact (loop_suffix e h _ _ _ _ _ _ hf).trans (List.suffix_cons _ _)
      · split at hf
        · rw [err hf]; exact List.suffix_refl _
        · exact loop_suffix e h _ _ _ _ _ _ hf

/-- A handler without undefined behaviour has none on a format on which the parser has none. -/
theorem parse_total {σ : Type} (e : Enc) (h : ChronoHandler σ) (hh : ∀ st x, h.call st x ≠ none) (st : σ) (fmt : List Nat)
    (hf : ∃ xs p', formatCalls e fmt = some (xs, p') ∧ p' <:+ fmt) : ∃ st' p, parseChrono e h st fmt = some (st', p) ∧ p <:+ fmt := by
  obtain ⟨xs, p', hx, _⟩ := hf
  cases hp : parseChrono e h st fmt with
  | none =>
    obtain ⟨_, _, _, _, _, _, hn⟩ := parse_none e h hp hx
    exact absurd hn (hh _ _)
  | some v => exact ⟨v.1, v.2, rfl, parse_suffix e h st fmt (p := v.2) (st' := v.1) hp⟩

theorem check_total (gmtoff : Bool) (k : TmKind) (c : Checker) (x : ChronoCall) : (checkHandler gmtoff k).call c x ≠ none := by
  simp only [checkHandler, Checker.call]
  split
  · simp
  · simp
  · split <;> simp

/-- The format string kept by the scanner and what follows it make up the format. -/
theorem chronoParse_parts {e : Enc} {gmtoff : Bool} {k : TmKind} {fmt f p : List Nat} (h : chronoParse e gmtoff k fmt = .ok (f, p)) : fmt = f ++ p := by
  unfold chronoParse at h
  split at h
  · cases h
  · rename_i c r
    split at h
    · cases h
    · split at h
      · cases h
      · rename_i chk p1 hparse
        split at h
        · cases h
        · cases h
          obtain ⟨a, ha⟩ := parse_suffix e _ _ _ hparse
          rw [← ha, List.length_append, Nat.add_sub_cancel, List.take_left]

theorem chronoParse_defined {e : Enc} {gmtoff : Bool} {k : TmKind} {fmt : List Nat} (hf : ∃ xs p', formatCalls e fmt = some (xs, p') ∧ p' <:+ fmt) :
    chronoParse e gmtoff k fmt ≠ .ub := by
  unfold chronoParse
  split
  · simp
  · split
    · simp
    · obtain ⟨st, p, h, _⟩ := parse_total e (checkHandler gmtoff k) (check_total gmtoff k) {} _ hf
      rw [h]
      dsimp only
      split <;> simp

/-- The loop at a literal character of several code units. -/
theorem loop_multi {σ : Type} (e : Enc) (h : ChronoHandler σ) (n : Nat) (st : σ) (acc : List Nat) {cp : Nat} (hcp : IsScalar cp) (hsp : isSpace cp = false)
    (hm : (encode e cp).length > 1) (q : List Nat) :
    chronoLoop e h (n + 1) st acc (encode e cp ++ q) = match q with
      | [] => none
      | d :: r => chronoLoop e h n st (acc ++ encode e cp ++ [d]) r := by
  obtain ⟨c, cs, hc, hl, hd⟩ := encode_head e cp hcp
  have hbig : 127 < cp := by
    apply Nat.lt_of_not_le
    intro hle
    rw [encode_ascii e cp (by omega)] at hm
    simp at hm
  obtain ⟨u, us, hu, hu'⟩ := encode_first_big e cp hcp hbig
  rw [hc] at hu
  cases hu
  have hcons : encode e cp ++ q = c :: (cs ++ q) := by rw [hc]; rfl
  rw [hc] at hm
  rw [hcons, chronoLoop, if_neg (by omega), if_pos (by omega), if_neg (by omega), if_neg (by rw [hl]; omega), if_neg (by rw [hl]; omega),
    if_neg (by rw [hl]; simp), hl, ← List.cons_append, List.take_left, List.drop_left, hd, Option.bind_some, isSpace_eq, hsp, if_neg (by simp), hc]
  cases q <;> rfl

/-- The check of `%Y` at the start of a format. -/
theorem check_Y (e : Enc) (gmtoff : Bool) (k : TmKind) (q : List Nat) :
    parseChrono e (checkHandler gmtoff k) {} (37 :: 89 :: q) = chronoLoop e (checkHandler gmtoff k) (q.length + 2) { st := { set := [.fullYear] } } [] q := by
  cases k <;> rfl

end Scn
