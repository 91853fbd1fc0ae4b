import Verif.Model.Space
import Verif.Lemmas.Unicode2
import Verif.Props.Bits
/-
Helper lemmas about the whitespace finders and readers.
-/
namespace Scn
open Spec

/-- One code point at a time search: the reference for the word-at-a-time search. -/
def refFindAux (e : Enc) (pred : Nat → Bool) : Nat → List Nat → Option (List Nat)
  | _, [] => some []
  | 0, _ :: _ => none
  | n + 1, s@(_ :: _) =>
    match getNext e s with
    | none => none
    | some (r, cp) => if pred cp then some s else refFindAux e pred n r

def refFind (e : Enc) (pred : Nat → Bool) (s : List Nat) : Option (List Nat) := refFindAux e pred s.length s

theorem refFindAux_mono (e : Enc) (pred : Nat → Bool) (n m : Nat) (s : List Nat) (h : s.length ≤ n)
    (h' : s.length ≤ m) : refFindAux e pred n s = refFindAux e pred m s := by
  induction n generalizing s m with
  | zero =>
    cases s with
    | nil => simp [refFindAux]
    | cons c cs => simp at h
  | succ n ih =>
    cases s with
    | nil => simp [refFindAux]
    | cons c cs =>
      cases m with
      | zero => simp at h'
      | succ m =>
        rw [refFindAux, refFindAux]
        cases hg : getNext e (c :: cs) with
        | none => rfl
        | some r =>
          obtain ⟨rest, cp⟩ := r
          have := getNext_length hg
          dsimp only
          rw [ih m rest (by simp at this h; omega) (by simp at this h'; omega)]

theorem refFind_nil (e : Enc) (pred : Nat → Bool) : refFind e pred [] = some [] := by
  simp [refFind, refFindAux]

theorem refFind_step (e : Enc) (pred : Nat → Bool) (s rest : List Nat) (cp : Nat)
    (h : getNext e s = some (rest, cp)) :
    refFind e pred s = if pred cp then some s else refFind e pred rest := by
  have hl := getNext_length h
  cases s with
  | nil => simp [getNext] at h
  | cons c cs =>
    unfold refFind
    rw [List.length_cons, refFindAux, h]
    dsimp only
    rw [refFindAux_mono e pred cs.length rest.length rest (by simp at hl; omega) (Nat.le_refl _)]

theorem getNext_ascii (b : Nat) (r : List Nat) (h : b < 128) : getNext .utf8 (b :: r) = some (r, b) := by
  have := getNext_utf8 b (by omega) r
  rw [utf8, if_pos (by omega)] at this
  exact this

/-- The reference search over an ASCII prefix. -/
theorem refFind_ascii (cu pred : Nat → Bool) (hc : ∀ b < 128, cu b = pred b) (pre rest : List Nat)
    (h : ∀ b ∈ pre, b < 128) :
    refFind .utf8 pred (pre ++ rest) =
      if pre.dropWhile (fun ch => ! cu ch) ≠ [] then some (pre.dropWhile (fun ch => ! cu ch) ++ rest)
      else refFind .utf8 pred rest := by
  induction pre with
  | nil => simp
  | cons b pre ih =>
    have hb := h b (by simp)
    rw [List.cons_append, refFind_step _ _ _ _ _ (getNext_ascii b (pre ++ rest) hb), ← hc b hb]
    cases hcb : cu b with
    | true =>
      rw [List.dropWhile_cons_of_neg (by simp [hcb])]
      simp
    | false =>
      rw [List.dropWhile_cons_of_pos (by simp [hcb])]
      simp only [Bool.false_eq_true, if_false]
      exact ih (fun x hx => h x (by simp [hx]))

theorem hasNonascii64_iff (sv : List Nat) (hl : sv.length ≤ 8) (h : ∀ b ∈ sv, b < 256) :
    hasNonascii64 sv = true ↔ ∃ b ∈ sv, 128 ≤ b := by
  have he : ∀ k, word8 (sv ++ List.replicate k 0) = word8 sv := by
    intro k
    clear hl h
    induction sv with
    | nil => rw [List.nil_append, (word8_eq_zero _).2 (fun b hb => (List.mem_replicate.1 hb).2)]; rfl
    | cons a l ih => rw [List.cons_append, word8, word8, ih]
  unfold hasNonascii64
  rw [← he (8 - sv.length)]
  have hlen : (sv ++ List.replicate (8 - sv.length) 0).length = 8 := by
    rw [List.length_append, List.length_replicate]; omega
  have hlt : ∀ b ∈ sv ++ List.replicate (8 - sv.length) 0, b < 256 := by
    intro b hb
    rcases List.mem_append.1 hb with hb | hb
    · exact h b hb
    · rw [(List.mem_replicate.1 hb).2]; decide
  have hz := greaterN_zero 127 (by decide) _ hlt
  rw [hlen] at hz
  have hg : ∀ w, w < 2 ^ 64 → hasByteGreater w 127 = greaterN 8 w (127 - 127) := by
    intro w hw
    unfold hasByteGreater greaterN
    rw [rep_mul (127 - 127) 8, rep_mul 128 8, show rep 1 8 = 0x0101010101010101 by decide,
      show (256 : Nat) ^ 8 = 2 ^ 64 by decide, Nat.add_mod_mod]
  have hw := word8_lt _ hlt
  rw [hlen] at hw
  rw [bne_iff_ne, Ne, hg _ hw, hz]
  constructor
  · intro hn
    apply Decidable.byContradiction
    intro hx
    apply hn
    intro x hx'
    rcases List.mem_append.1 hx' with hx' | hx'
    · exact Nat.le_of_lt_succ (Nat.not_le.1 (fun hc => hx ⟨x, hx', hc⟩))
    · rw [(List.mem_replicate.1 hx').2]; decide
  · rintro ⟨b, hb, h1⟩ hn
    have := hn b (List.mem_append_left _ hb)
    omega

/-- The inner loop performs steps of the reference search and stays inside the source. -/
theorem findInner_ref (pred : Nat → Bool) (n i sz : Nat) (it : List Nat) (hn0 : 0 < n) (hn : sz < n + i)
    (hi : sz ≤ i + it.length) :
    (∃ p, findInner pred n i sz it = some (true, p) ∧ refFind .utf8 pred it = some p) ∨
    (∃ p, findInner pred n i sz it = some (false, p) ∧ refFind .utf8 pred it = refFind .utf8 pred p ∧
      p.length ≤ it.length ∧ (i < sz → p.length < it.length)) := by
  induction n generalizing i it with
  | zero => omega
  | succ n ih =>
    rw [findInner]
    by_cases h : i < sz
    · rw [if_pos h]
      have hne : it ≠ [] := by rintro rfl; simp at hi; omega
      obtain ⟨used, rest, cp, h1, h2, h3⟩ := getNext_progress .utf8 it hne
      have hl := getNext_length h1
      rw [h1]
      dsimp only
      have hstep := refFind_step .utf8 pred it rest cp h1
      cases hp : pred cp with
      | true =>
        rw [hp] at hstep
        exact .inl ⟨it, rfl, hstep⟩
      | false =>
        rw [hp] at hstep
        simp only [Bool.false_eq_true, if_false] at hstep ⊢
        rcases ih (i + (it.length - rest.length) + 1) rest (by omega) (by omega) (by omega) with ⟨p, g1, g2⟩ | ⟨p, g1, g2, g3, _⟩
        · exact .inl ⟨p, g1, by rw [hstep, g2]⟩
        · exact .inr ⟨p, g1, by rw [hstep, g2], by omega, fun _ => by omega⟩
    · rw [if_neg h]
      exact .inr ⟨it, rfl, rfl, Nat.le_refl _, fun h' => absurd h' h⟩

/-- The word-at-a-time search is the reference search, on every byte string. -/
theorem findClassicAux_ref (cu pred : Nat → Bool) (hc : ∀ b < 128, cu b = pred b) (n : Nat) (s : List Nat)
    (hn : s.length ≤ n) (hb : ∀ b ∈ s, b < 256) : findClassicAux cu pred n s = refFind .utf8 pred s := by
  induction n generalizing s with
  | zero =>
    cases s with
    | nil => rw [refFind_nil]; simp [findClassicAux]
    | cons c cs => simp at hn
  | succ n ih =>
    cases s with
    | nil => rw [refFind_nil]; simp [findClassicAux]
    | cons c cs =>
      rw [findClassicAux]
      dsimp only
      have hlen8 : ((c :: cs).take 8).length ≤ 8 := by rw [List.length_take]; omega
      have hpos : 0 < ((c :: cs).take 8).length := by rw [List.length_take, List.length_cons]; omega
      have hle : ((c :: cs).take 8).length ≤ (c :: cs).length := by rw [List.length_take]; omega
      have htb : ∀ b ∈ (c :: cs).take 8, b < 256 := fun b h => hb b (List.mem_of_mem_take h)
      have hna := hasNonascii64_iff _ hlen8 htb
      by_cases h : hasNonascii64 ((c :: cs).take 8) = true
      · rw [if_neg (fun hn' => hn' h)]
        rcases findInner_ref pred (((c :: cs).take 8).length + 1) 0 ((c :: cs).take 8).length (c :: cs)
          (by omega) (by omega) (by omega) with ⟨p, g1, g2⟩ | ⟨p, g1, g2, g3, g4⟩
        · rw [g1, g2]
        · rw [g1, g2]
          dsimp only
          have hsub : ∀ b ∈ p, b < 256 := by
            -- the position is a suffix
            have : ∀ n i sz it q f, findInner pred n i sz it = some (f, q) → ∀ b ∈ q, b ∈ it := by
              intro n
              induction n with
              | zero => intro i sz it q f hq; simp [findInner] at hq
              | succ n ih2 =>
                intro i sz it q f hq b hbq
                rw [findInner] at hq
                by_cases hi : i < sz
                · rw [if_pos hi] at hq
                  cases hg : getNext .utf8 it with
                  | none => simp [hg] at hq
                  | some r =>
                    obtain ⟨rest, cp⟩ := r
                    rw [hg] at hq
                    dsimp only at hq
                    have hne : it ≠ [] := by rintro rfl; simp [getNext] at hg
                    obtain ⟨used, rest', cp', e1, e2, e3⟩ := getNext_progress .utf8 it hne
                    rw [hg, Option.some.injEq, Prod.mk.injEq] at e1
                    by_cases hp : pred cp = true
                    · rw [if_pos hp] at hq; simp at hq; rw [hq.2]; exact hbq
                    · rw [if_neg hp] at hq
                      have := ih2 _ _ _ _ _ hq b hbq
                      rw [e3, ← e1.1]; exact List.mem_append_right _ this
                · rw [if_neg hi] at hq; simp at hq; rw [hq.2]; exact hbq
            exact fun b hbp => hb b (this _ _ _ _ _ _ g1 b hbp)
          have := g4 hpos
          exact ih p (by simp at hn this; omega) hsub
      · rw [if_pos h]
        have hasc : ∀ b ∈ (c :: cs).take 8, b < 128 := by
          intro b hb'
          exact Nat.not_le.1 (fun hc' => h (hna.2 ⟨b, hb', hc'⟩))
        have href := refFind_ascii cu pred hc ((c :: cs).take 8) ((c :: cs).drop 8) hasc
        rw [List.take_append_drop] at href
        rw [href]
        by_cases ht : ((c :: cs).take 8).dropWhile (fun ch => ! cu ch) ≠ []
        · rw [if_pos ht, if_pos ht]
          congr 1
          generalize hp : (c :: cs).take 8 = pre at *
          have hsplit : (c :: cs) = pre ++ (c :: cs).drop 8 := by rw [← hp, List.take_append_drop]
          have hd : pre.dropWhile (fun ch => ! cu ch) = pre.drop (pre.length - (pre.dropWhile (fun ch => ! cu ch)).length) := by
            have h2 := (List.takeWhile_append_dropWhile (p := fun ch => ! cu ch) (l := pre))
            have h3 : pre.length - (pre.dropWhile (fun ch => ! cu ch)).length = (pre.takeWhile (fun ch => ! cu ch)).length := by
              have := congrArg List.length h2
              rw [List.length_append] at this
              omega
            rw [h3]
            conv => rhs; arg 2; rw [← h2]
            rw [List.drop_left]
          conv => lhs; arg 2; rw [hsplit]
          rw [List.drop_append_of_le_length (by omega), ← hd]
        · rw [if_neg ht, if_neg ht]
          have ht' : ((c :: cs).take 8).dropWhile (fun ch => ! cu ch) = [] := Decidable.not_not.1 ht
          rw [ht', List.length_nil, Nat.sub_zero]
          have hdrop : (c :: cs).drop ((c :: cs).take 8).length = (c :: cs).drop 8 := by
            rw [List.length_take]
            by_cases h8 : 8 ≤ (c :: cs).length
            · rw [Nat.min_eq_left h8]
            · rw [Nat.min_eq_right (by omega), List.drop_length, List.drop_eq_nil_of_le (by omega)]
          rw [hdrop]
          exact ih _ (by rw [List.length_drop]; simp only [List.length_cons] at *; omega)
            (fun b hb' => hb b (List.mem_of_mem_drop hb'))

theorem refFind_utf8s (pred : Nat → Bool) (cps : List Nat) (h : ∀ cp ∈ cps, cp < 0x110000) :
    refFind .utf8 pred (utf8s cps) = some (utf8s (cps.dropWhile (fun cp => ! pred cp))) := by
  induction cps with
  | nil => rw [show utf8s [] = [] from rfl, refFind_nil]; rfl
  | cons cp cps ih =>
    rw [utf8s, List.flatMap_cons, show cps.flatMap utf8 = utf8s cps from rfl,
      refFind_step .utf8 pred _ _ cp (getNext_utf8 cp (h cp (by simp)) (utf8s cps))]
    cases hp : pred cp with
    | true =>
      rw [List.dropWhile_cons_of_neg (by simp [hp])]
      simp [utf8s]
    | false =>
      rw [List.dropWhile_cons_of_pos (by simp [hp])]
      simp only [Bool.false_eq_true, if_false]
      exact ih (fun x hx => h x (by simp [hx]))

theorem isAsciiSpace_eq (b : Nat) (h : b < 128) : isAsciiSpace b = isCpSpace b := by
  have : ∀ k : Fin 128, isAsciiSpace k.val = isCpSpace k.val := by decide +kernel
  exact this ⟨b, h⟩

theorem findSpace_ref (s : List Nat) (hb : ∀ b ∈ s, b < 256) : findSpace s = refFind .utf8 isCpSpace s :=
  findClassicAux_ref _ _ (fun b h => isAsciiSpace_eq b h) _ s (Nat.le_refl _) hb

theorem findNonspace_ref (s : List Nat) (hb : ∀ b ∈ s, b < 256) :
    findNonspace s = refFind .utf8 (fun cp => ! isCpSpace cp) s :=
  findClassicAux_ref _ _ (fun b h => by rw [isAsciiSpace_eq b h]) _ s (Nat.le_refl _) hb

theorem isCpSpace_iff (cp : Nat) : isCpSpace cp = true ↔ cp ∈ PatternWhiteSpace := by
  simp only [isCpSpace, PatternWhiteSpace, Bool.or_eq_true, Bool.and_eq_true, decide_eq_true_eq, beq_iff_eq,
    List.mem_cons, List.not_mem_nil, or_false]
  omega

end Scn
