import Verif.Lemmas.Simulate
import Verif.Lemmas.Defined5
import Verif.Lemmas.Fields2
import Verif.Lemmas.Chrono11
import Verif.Spec.Boundary
/-
Positions between the characters of a well-formed text, and what keeps a scan on them.
-/
namespace Scn
open Spec
variable {V : Type}

theorem Spec.Between.here (e : Enc) (cps : List Nat) : Between e cps (encodes e cps) := ⟨cps, List.suffix_refl _, rfl⟩

theorem Spec.Between.trans {e : Enc} {cps t s : List Nat} (h : t <:+ cps) (hs : Between e t s) : Between e cps s := by
  obtain ⟨u, hu, rfl⟩ := hs
  exact ⟨u, hu.trans h, rfl⟩

theorem single_ascii (e : Enc) {u : Nat} (h : u < 128) : Single e u := ⟨⟨by omega, by omega⟩, encode_ascii e u h⟩

/-- `r` is what is left of `s` after characters of one unit. -/
def Dropped (e : Enc) (s r : List Nat) : Prop := ∃ a, s = a ++ r ∧ ∀ u ∈ a, Single e u

theorem Dropped.refl (e : Enc) (s : List Nat) : Dropped e s s := ⟨[], rfl, by simp⟩

theorem Dropped.trans {e : Enc} {s r q : List Nat} (h : Dropped e s r) (h2 : Dropped e r q) : Dropped e s q := by
  obtain ⟨a, rfl, ha⟩ := h
  obtain ⟨b, rfl, hb⟩ := h2
  refine ⟨a ++ b, by simp, fun u hu => ?_⟩
  rcases List.mem_append.1 hu with h | h
  · exact ha u h
  · exact hb u h

theorem Dropped.cons {e : Enc} {c : Nat} {s : List Nat} (h : Single e c) : Dropped e (c :: s) s :=
  ⟨[c], rfl, fun u hu => by rw [List.mem_singleton.1 hu]; exact h⟩

theorem dropped_drop {e : Enc} {s : List Nat} (n : Nat) (h : ∀ u ∈ s.take n, Single e u) : Dropped e s (s.drop n) :=
  ⟨s.take n, (List.take_append_drop _ _).symm, h⟩

theorem dropped_run {e : Enc} {s a b : List Nat} (hs : s = a ++ b) (h : ∀ u ∈ a, Single e u) {n : Nat} (hn : n ≤ a.length) :
    Dropped e s (s.drop n) := by
  refine dropped_drop n fun u hu => h u ?_
  rw [hs, List.take_append_of_le_length hn] at hu
  exact List.mem_of_mem_take hu

theorem encodes_single_head {e : Enc} {cps : List Nat} (hs : ∀ c ∈ cps, IsScalar c) {u : Nat} {t : List Nat} (h : encodes e cps = u :: t)
    (hu : Single e u) : ∃ cps', cps = u :: cps' ∧ t = encodes e cps' := by
  cases cps with
  | nil => cases h
  | cons c cps =>
    rw [encodes_cons] at h
    obtain ⟨v, vs, hv⟩ := encode_cons e c
    rw [hv] at h
    simp only [List.cons_append, List.cons.injEq] at h
    obtain ⟨rfl, h2⟩ := h
    have := encode_inj_single hu.1 (hs c (by simp)) hu.2 hv
    subst this
    rw [hu.2] at hv
    cases hv
    exact ⟨cps, rfl, h2.symm⟩

theorem dropped_between {e : Enc} : ∀ {a cps r : List Nat}, (∀ c ∈ cps, IsScalar c) → encodes e cps = a ++ r → (∀ u ∈ a, Single e u) →
    Between e cps r
  | [], cps, _, _, h, _ => ⟨cps, List.suffix_refl _, h.symm⟩
  | u :: a, cps, r, hs, h, ha => by
    obtain ⟨cps', rfl, h'⟩ := encodes_single_head hs h (ha u (by simp))
    exact (dropped_between (fun c hc => hs c (by simp [hc])) h'.symm (fun v hv => ha v (by simp [hv]))).trans (List.suffix_cons _ _)

theorem Dropped.between {e : Enc} {cps r : List Nat} (hs : ∀ c ∈ cps, IsScalar c) (h : Dropped e (encodes e cps) r) : Between e cps r := by
  obtain ⟨a, ha, h⟩ := h
  exact dropped_between hs ha h

/-- The first character of a well-formed text that is not empty. -/
theorem encodes_first {e : Enc} {cps : List Nat} (hs : ∀ c ∈ cps, IsScalar c) {u : Nat} {t : List Nat} (h : encodes e cps = u :: t) :
    ∃ x cps', cps = x :: cps' ∧ cpLength e u = (encode e x).length ∧ (u :: t).take (cpLength e u) = encode e x ∧
      (u :: t).drop (cpLength e u) = encodes e cps' := by
  cases cps with
  | nil => cases h
  | cons x cps =>
    obtain ⟨c, cs, h1, h2, _⟩ := encode_head e x (hs x (by simp))
    rw [encodes_cons] at h
    have hu : u = c := by
      rw [h1] at h
      simp only [List.cons_append, List.cons.injEq] at h
      exact h.1.symm
    have hl : cpLength e u = (encode e x).length := by rw [hu, h2, h1]
    refine ⟨x, cps, rfl, hl, ?_, ?_⟩
    · rw [← h, hl, List.take_left]
    · rw [← h, hl, List.drop_left]

/-- A valid beginning of a well-formed text ends between two characters. -/
theorem validate_between {e : Enc} : ∀ (n : Nat) {a r cps : List Nat}, (∀ c ∈ cps, IsScalar c) → encodes e cps = a ++ r →
    validateAux e n a = some true → Between e cps r
  | _, [], r, cps, _, h, _ => ⟨cps, List.suffix_refl _, h.symm⟩
  | 0, _ :: _, _, _, _, _, hv => by simp [validateAux] at hv
  | n + 1, c :: cs, r, cps, hs, h, hv => by
    obtain ⟨x, cps', rfl, h1, h2, h3⟩ := encodes_first hs h
    unfold validateAux at hv
    dsimp only at hv
    split at hv
    · cases hv
    · split at hv
      · cases hv
      · rename_i hlen
        split at hv
        · cases hv
        · split at hv
          · cases hv
          · refine (validate_between n (fun c hc => hs c (by simp [hc])) (a := (c :: cs).drop (cpLength e c)) ?_ hv).trans (List.suffix_cons _ _)
            rw [← h3]
            show List.drop _ ((c :: cs) ++ r) = _
            rw [List.drop_append_of_le_length (by omega)]

/-! ### Literal text -/

theorem trailing_cpLength8 {b : Nat} (h : isTrailing b = true) : cpLength8 b = 0 := by
  unfold isTrailing at h
  have h1 : b >>> 6 = 2 := by simpa using h
  have h2 : b / 64 = 2 := by rw [← h1, Nat.shiftRight_eq_div_pow]
  unfold cpLength8
  have h3 : b >>> 3 = b / 8 := by rw [Nat.shiftRight_eq_div_pow]
  have h4 : 16 ≤ b / 8 ∧ b / 8 < 24 := by omega
  rw [h3]
  generalize b / 8 = k at h4
  have : k = 16 ∨ k = 17 ∨ k = 18 ∨ k = 19 ∨ k = 20 ∨ k = 21 ∨ k = 22 ∨ k = 23 := by omega
  rcases this with rfl | rfl | rfl | rfl | rfl | rfl | rfl | rfl <;> rfl

/-- The second unit of a character cannot begin one. -/
theorem decoded_second {e : Enc} {c d cp : Nat} {ds : List Nat} (h : decodeCp e (c :: d :: ds) = some cp) (hcp : cp ≠ invalidCp) :
    cpLength e d = 0 := by
  cases e with
  | utf8 =>
    show cpLength8 d = 0
    have h' : decodeUtf8 (c :: d :: ds) = some cp := h
    unfold decodeUtf8 at h'
    split at h'
    · rename_i hx; cases hx
    all_goals first
      | (rename_i hx
         cases hx
         simp only [Option.some.injEq] at h'
         repeat' split at h'
         all_goals first
           | exact absurd h'.symm hcp
           | (apply trailing_cpLength8; simp_all))
      | cases h'
  | utf16 =>
    show cpLength16 d = 0
    have h' : decodeUtf16 (c :: d :: ds) = some cp := h
    unfold decodeUtf16 at h'
    split at h'
    · rename_i hx; cases hx
    · rename_i hx
      cases hx
      simp only [Option.some.injEq] at h'
      split at h'
      · exact absurd h'.symm hcp
      · rename_i hd
        have hd2 : 0xdc00 ≤ d ∧ d ≤ 0xdfff := by omega
        have hand : 0xffff &&& d = d := by
          rw [Nat.and_comm, show (0xffff : Nat) = 2 ^ 16 - 1 by decide, Nat.and_two_pow_sub_one_eq_mod]
          omega
        unfold cpLength16
        rw [hand]
        dsimp only
        rw [if_neg (by omega), if_pos hd2]
    · cases h'
  | utf32 =>
    exact absurd h (by simp [decodeCp])

theorem litLoop_inside {env : Env V} {n : Nat} {src r : List Nat} {d : Nat} {cs : List Nat} (hd : cpLength env.enc d = 0) :
    litLoop env n src (d :: cs) ≠ some (r, none) := by
  cases n with
  | zero => simp [litLoop]
  | succ n =>
    unfold litLoop
    cases src with
    | nil => simp
    | cons x xs =>
      simp only [getNext, hd, if_true]
      simp

/-- Literal text that matches ends between two characters of the source. -/
theorem litLoop_between {env : Env V} {e : Enc} (he : env.enc = e) {cps : List Nat}
    (hskip : ∀ s r, Between e cps s → env.skip s = some r → Between e cps r) (hs : ∀ c ∈ cps, IsScalar c) (n : Nat) :
    ∀ (src text r : List Nat), Between e cps src → litLoop env n src text = some (r, none) → Between e cps r := by
  induction n with
  | zero =>
    intro src text r hb h
    cases text with
    | nil => simp only [litLoop, Option.some.injEq, Prod.mk.injEq, and_true] at h; subst h; exact hb
    | cons => simp [litLoop] at h
  | succ n ih =>
    intro src text r hb h
    cases text with
    | nil => simp only [litLoop, Option.some.injEq, Prod.mk.injEq, and_true] at h; subst h; exact hb
    | cons c cs =>
      cases src with
      | nil => simp [litLoop] at h
      | cons d ds =>
        unfold litLoop at h
        dsimp only at h
        split at h
        · cases h
        · rename_i after cp hg
          split at h
          · simp at h
          · rename_i hc
            split at h
            · split at h
              · rename_i src' text' h1 h2
                exact ih _ _ _ (hskip _ _ hb h1) h
              · cases h
            · split at h
              · simp at h
              · rename_i hne
                have hdc : d = c := Classical.not_not.1 hne
                subst hdc
                obtain ⟨t, ht, hst⟩ := hb
                obtain ⟨x, t', rfl, hl, htk, hdr⟩ := encodes_first (fun c hc => hs c (ht.subset hc)) hst.symm
                by_cases h1 : cpLength e d = 1
                · rw [h1] at hdr
                  exact ih _ _ _ ⟨t', (List.suffix_cons _ _).trans ht, hdr⟩ h
                · exfalso
                  have h0 : cpLength e d ≠ 0 := by
                    rw [hl]
                    intro h0
                    exact encode_ne_nil e x (List.length_eq_zero_iff.1 h0)
                  unfold getNext at hg
                  dsimp only at hg
                  rw [he, if_neg h0] at hg
                  split at hg
                  · simp only [Option.some.injEq, Prod.mk.injEq] at hg
                    exact hc hg.2.symm
                  · rename_i hlen
                    simp only [Option.map_eq_some_iff, Prod.mk.injEq] at hg
                    obtain ⟨cp', hdec, _, rfl⟩ := hg
                    cases cs with
                    | nil => simp at hlen; omega
                    | cons y ys =>
                      obtain ⟨k, hk⟩ : ∃ k, cpLength e d = k + 2 := ⟨cpLength e d - 2, by omega⟩
                      rw [hk] at hdec
                      simp only [List.take_succ_cons] at hdec
                      exact litLoop_inside (by rw [he]; exact decoded_second hdec hc) h

end Scn
