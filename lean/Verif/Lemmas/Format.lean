import Verif.Lemmas.Space2
import Verif.Model.Format
/-
The format parser stays inside the format string: every function is total on the inputs it is
given and returns a suffix of its input.
-/
namespace Scn
open Spec

theorem suffix_of_append {used rest s : List Nat} (h : s = used ++ rest) : rest <:+ s := ⟨used, h.symm⟩

theorem drop_suffix' (s : List Nat) (n : Nat) : s.drop n <:+ s := List.drop_suffix n s

theorem suffix_cons_of {p cs : List Nat} {c : Nat} (h : p <:+ cs) : p <:+ c :: cs :=
  h.trans (List.suffix_cons c cs)

/-- Decoding any non-empty list no longer than the longest sequence is total. -/
theorem decodeCp_some (e : Enc) (c : Nat) (s : List Nat) (hs : s ≠ []) (hl : s.length ≤ cpLength e c) :
    ∃ cp, decodeCp e s = some cp := by
  cases e with
  | utf8 =>
    have h4 := cpLength_le .utf8 c
    match s, hs, hl with
    | [a], _, _ => exact ⟨_, rfl⟩
    | [a, b], _, _ => exact ⟨_, rfl⟩
    | [a, b, x], _, _ => exact ⟨_, rfl⟩
    | [a, b, x, d], _, _ => exact ⟨_, rfl⟩
    | a :: b :: x :: d :: y :: ys, _, hl => simp at hl; omega
  | utf16 =>
    have h2 : cpLength .utf16 c ≤ 2 := by
      simp only [cpLength, cpLength16]; repeat' split
      all_goals omega
    match s, hs, hl with
    | [a], _, _ => exact ⟨_, rfl⟩
    | [a, b], _, _ => exact ⟨_, rfl⟩
    | a :: b :: x :: d, _, hl => simp at hl; omega
  | utf32 =>
    match s, hs, hl with
    | [a], _, _ => exact ⟨_, rfl⟩
    | a :: b :: x, _, hl => simp [cpLength] at hl

theorem startNext_suffix (e : Enc) (s : List Nat) : startNext e s <:+ s := by
  unfold startNext; exact List.dropWhile_suffix _

theorem readCpInto_suffix {e : Enc} {s r u : List Nat} (h : readCpInto e s = some (r, u)) : r <:+ s := by
  cases s with
  | nil => simp [readCpInto] at h
  | cons c cs =>
    simp only [readCpInto] at h
    split at h
    · simp at h; rw [← h.1]; exact suffix_cons_of (startNext_suffix e cs)
    · split at h
      · simp at h; rw [← h.1]; exact List.suffix_cons c cs
      · simp at h; rw [← h.1]; exact drop_suffix' _ _

theorem readUntilCpAux_total (e : Enc) (pred : Nat → Bool) (n : Nat) :
    ∀ s : List Nat, s.length ≤ n → ∃ p, readUntilCpAux e pred n s = some p ∧ p <:+ s := by
  induction n with
  | zero =>
    intro s h
    cases s with
    | nil => exact ⟨[], by simp [readUntilCpAux], List.suffix_refl _⟩
    | cons c cs => simp at h
  | succ n ih =>
    intro s h
    cases s with
    | nil => exact ⟨[], by simp [readUntilCpAux], List.suffix_refl _⟩
    | cons c cs =>
      have hr : ∃ r u, readCpInto e (c :: cs) = some (r, u) ∧ (u ≠ [] → u.length ≤ cpLength e c) := by
        simp only [readCpInto]
        split
        · exact ⟨_, _, rfl, by simp⟩
        · split
          · rename_i h1; exact ⟨_, _, rfl, by simp [h1]⟩
          · exact ⟨_, _, rfl, fun _ => by simp; omega⟩
      obtain ⟨r, u, h1, h2⟩ := hr
      have hl := readCpInto_length h1
      have hsuf := readCpInto_suffix h1
      obtain ⟨p, hp, hps⟩ := ih r (by simp at h hl; omega)
      simp only [readUntilCpAux, h1]
      split
      · exact ⟨p, hp, hps.trans hsuf⟩
      · rename_i hu
        obtain ⟨cp, hcp⟩ := decodeCp_some e c u hu (h2 hu)
        simp only [hcp]
        split
        · exact ⟨_, rfl, List.suffix_refl _⟩
        · exact ⟨p, hp, hps.trans hsuf⟩

theorem readUntilCp_total (e : Enc) (pred : Nat → Bool) (s : List Nat) :
    ∃ p, readUntilCp e pred s = some p ∧ p <:+ s :=
  readUntilCpAux_total e pred s.length s (Nat.le_refl _)

theorem refFind_total (e : Enc) (pred : Nat → Bool) (n : Nat) :
    ∀ s : List Nat, s.length ≤ n → ∃ p, refFind e pred s = some p ∧ p <:+ s := by
  induction n with
  | zero =>
    intro s h
    cases s with
    | nil => exact ⟨[], refFind_nil e pred, List.suffix_refl _⟩
    | cons c cs => simp at h
  | succ n ih =>
    intro s h
    cases s with
    | nil => exact ⟨[], refFind_nil e pred, List.suffix_refl _⟩
    | cons c cs =>
      obtain ⟨used, rest, cp, h1, h2, h3⟩ := getNext_progress e (c :: cs) (by simp)
      rw [refFind_step e pred _ _ _ h1]
      split
      · exact ⟨_, rfl, List.suffix_refl _⟩
      · have := getNext_length h1
        obtain ⟨p, hp, hps⟩ := ih rest (by simp at h this; omega)
        exact ⟨p, hp, hps.trans (suffix_of_append h3)⟩

/-- Units of a character type: bytes for narrow text, anything for wide text. -/
def UnitsOk (e : Enc) (s : List Nat) : Prop := e = .utf8 → ∀ b ∈ s, b < 256

theorem UnitsOk.suffix {e : Enc} {s t : List Nat} (h : UnitsOk e s) (ht : t <:+ s) : UnitsOk e t :=
  fun he b hb => h he b (ht.subset hb)

theorem readWhileSpace_total (e : Enc) (s : List Nat) (h : UnitsOk e s) :
    ∃ p, readWhileSpace e .contiguous s = some p ∧ p <:+ s := by
  cases e with
  | utf8 =>
    obtain ⟨p, hp, hps⟩ := refFind_total .utf8 (fun cp => ! isCpSpace cp) s.length s (Nat.le_refl _)
    exact ⟨p, by rw [readWhileSpace, findNonspace_ref s (h rfl), hp], hps⟩
  | utf16 => exact readUntilCp_total .utf16 _ s
  | utf32 => exact readUntilCp_total .utf32 _ s

/-! ### The pieces of `parse_format_specs` -/

/-- The result of a step: defined, and a suffix. -/
def StepsTo {α : Type} (r : Option (α × List Nat)) (s : List Nat) : Prop := ∃ a p, r = some (a, p) ∧ p <:+ s

theorem simpleIntLoop_suffix (s : List Nat) : ∀ v, (simpleIntLoop v s).2 <:+ s := by
  induction s with
  | nil => intro v; exact List.suffix_refl _
  | cons c cs ih =>
    intro v
    simp only [simpleIntLoop]
    split
    · split
      · exact List.suffix_refl _
      · exact suffix_cons_of (ih _)
    · exact List.suffix_refl _

theorem fillLength_le (e : Enc) (c : Nat) : fillLength e c ≤ 4 := by
  cases e with
  | utf8 => exact cpLength_le .utf8 c
  | utf16 => simp [fillLength]
  | utf32 => simp [fillLength]

theorem fill_assign_total (e : Enc) (c : Nat) (s : List Nat) (hs : s ≠ []) (hl : s.length ≤ fillLength e c) :
    ∃ f, Fill.assign e s = some f := by
  have h4 := fillLength_le e c
  cases e with
  | utf8 =>
    cases s with
    | nil => exact absurd rfl hs
    | cons a as =>
      simp only [Fill.assign]
      rw [if_neg (by omega)]
      exact ⟨_, rfl⟩
  | utf16 =>
    match s, hs, hl with
    | [a], _, _ => exact ⟨_, rfl⟩
    | a :: b :: x, _, hl => simp [fillLength] at hl
  | utf32 =>
    match s, hs, hl with
    | [a], _, _ => exact ⟨_, rfl⟩
    | a :: b :: x, _, hl => simp [fillLength] at hl

theorem parseAlign_steps (e : Enc) (st : Setter) (s : List Nat) (hs : s ≠ []) :
    StepsTo (parseAlign e st s) s := by
  cases s with
  | nil => exact absurd rfl hs
  | cons c cs =>
    simp only [parseAlign]
    split
    · exact ⟨_, _, rfl, List.suffix_refl _⟩
    · rename_i hlen
      split
      · exact ⟨_, _, rfl, List.suffix_refl _⟩
      · rename_i d after hd
        have hsuf : d :: after <:+ c :: cs := hd ▸ drop_suffix' (c :: cs) (fillLength e c)
        have hafter : after <:+ c :: cs := (List.suffix_cons d after).trans hsuf
        split
        · exact ⟨_, _, rfl, hafter⟩
        · split
          · exact ⟨_, _, rfl, List.suffix_refl _⟩
          · split
            · split
              · exact ⟨_, _, rfl, hsuf⟩
              · exact ⟨_, _, rfl, List.suffix_refl _⟩
            · obtain ⟨f, hf⟩ := fill_assign_total e c ((c :: cs).take (fillLength e c))
                (by
                  intro h0
                  have : ((c :: cs).take (fillLength e c)).length = 0 := by rw [h0]; rfl
                  rw [List.length_take] at this; simp at this; omega)
                (by rw [List.length_take]; omega)
              simp only [Setter.onFill, hf, Option.map_some]
              exact ⟨_, _, rfl, hafter⟩

theorem parseWidth_steps (st : Setter) (s : List Nat) (hs : s ≠ []) : StepsTo (parseWidth st s) s := by
  cases s with
  | nil => exact absurd rfl hs
  | cons c cs =>
    simp only [parseWidth]
    split
    · rename_i hd
      simp only [parseSimpleInt, hd, if_true, Option.map_some]
      split
      · exact ⟨_, _, rfl, simpleIntLoop_suffix _ _⟩
      · exact ⟨_, _, rfl, simpleIntLoop_suffix _ _⟩
    · exact ⟨_, _, rfl, List.suffix_refl _⟩

theorem parsePrecision_steps (st : Setter) (s : List Nat) (hs : s ≠ []) : StepsTo (parsePrecision st s) s := by
  cases s with
  | nil => exact absurd rfl hs
  | cons c cs =>
    simp only [parsePrecision]
    split
    · rename_i hd
      simp only [parseSimpleInt, hd, if_true, Option.map_some]
      split
      · exact ⟨_, _, rfl, simpleIntLoop_suffix _ _⟩
      · exact ⟨_, _, rfl, simpleIntLoop_suffix _ _⟩
    · exact ⟨_, _, rfl, List.suffix_refl _⟩

/-- What the set parser needs of its handler: an error is remembered, and a non-empty range is
    accepted. -/
def SetHandler.Lawful {σ : Type} (H : SetHandler σ) : Prop :=
  (∀ st, H.failed (H.error st) = true) ∧ ∀ st a b, a < b → ∃ st', H.range st a b = some st'

theorem setterSet_lawful : setterSet.Lawful := by
  refine ⟨fun st => rfl, fun st a b h => ?_⟩
  simp only [setterSet, Setter.onCharsetRange]
  rw [if_neg (by omega)]
  split
  · exact ⟨_, rfl⟩
  · exact ⟨_, rfl⟩

/-- One code point of a character set: an error at the same place, or progress. -/
theorem setCodePoint_steps {σ : Type} (H : SetHandler σ) (e : Enc) (st : σ) (s : List Nat) (hs : s ≠ []) :
    setCodePoint H e st s = some (H.error st, none, s) ∨
    ∃ cp p, setCodePoint H e st s = some (st, some cp, p) ∧ p <:+ s ∧ p.length < s.length ∧ cp < invalidCp := by
  cases s with
  | nil => exact absurd rfl hs
  | cons c cs =>
    simp only [setCodePoint]
    split
    · left; rfl
    · rename_i hlen
      obtain ⟨cp, hcp⟩ := decodeCp_total e c ((c :: cs).take (cpLength e c)) (by omega)
        (by rw [List.length_take]; omega)
      simp only [hcp]
      split
      · left; rfl
      · right
        exact ⟨cp, _, rfl, drop_suffix' _ _, by rw [List.length_drop]; simp; omega, by omega⟩

/-- A set literal: progress, or an error. -/
theorem setLiteral_steps {σ : Type} (H : SetHandler σ) (hL : H.Lawful) (e : Enc) (st : σ) (s : List Nat) (hs : s ≠ []) :
    ∃ st' p, setLiteral H e st s = some (st', p) ∧ p <:+ s ∧ (H.failed st' = true ∨ p.length < s.length) := by
  unfold setLiteral
  rcases setCodePoint_steps H e st s hs with h | ⟨cp, p, h, h1, h2, h3⟩
  · simp only [h]; exact ⟨_, _, rfl, List.suffix_refl _, Or.inl (hL.1 _)⟩
  · simp only [h]
    split
    · rename_i d rest
      split
      · rcases setCodePoint_steps H e st (d :: rest) (by simp) with h' | ⟨cp', p', h', h1', h2', h3'⟩
        · simp only [h']
          exact ⟨_, _, rfl, (List.suffix_cons 45 _).trans h1, Or.inl (hL.1 _)⟩
        · simp only [h']
          have hs' : p' <:+ s := (h1'.trans (List.suffix_cons 45 _)).trans h1
          have hl' : p'.length < s.length := by simp at h2; simp at h2'; omega
          split
          · exact ⟨_, _, rfl, hs', Or.inl (hL.1 _)⟩
          · obtain ⟨st', hr⟩ := hL.2 st cp (cp' + 1) (by omega)
            rw [hr]
            exact ⟨_, _, rfl, hs', Or.inr hl'⟩
      · exact ⟨_, _, rfl, h1, Or.inr h2⟩
    · exact ⟨_, _, rfl, h1, Or.inr h2⟩

theorem setLoop_steps {σ : Type} (H : SetHandler σ) (hL : H.Lawful) (e : Enc) (n : Nat) : ∀ (st : σ) (s : List Nat), s.length < n →
    ∃ st' b p, setLoop H e n st s = some (st', b, p) ∧ p <:+ s := by
  induction n with
  | zero => intro st s h; omega
  | succ n ih =>
    intro st s h
    cases s with
    | nil => exact ⟨_, _, _, rfl, List.suffix_refl _⟩
    | cons c cs =>
      simp only [setLoop]
      split
      · exact ⟨_, _, _, rfl, List.suffix_refl _⟩
      · split
        · exact ⟨_, _, _, rfl, List.suffix_cons _ _⟩
        · obtain ⟨st', p, h1, h2, h3⟩ := setLiteral_steps H hL e st (c :: cs) (by simp)
          simp only [h1]
          rcases h3 with h3 | h3
          · cases n with
            | zero => simp at h
            | succ n =>
              cases p with
              | nil => exact ⟨_, _, _, rfl, h2⟩
              | cons x xs => simp only [setLoop, h3, if_true]; exact ⟨_, _, _, rfl, h2⟩
          · obtain ⟨st2, b, p2, h4, h5⟩ := ih st' p (by omega)
            exact ⟨st2, b, p2, h4, h5.trans h2⟩

theorem parseSet_steps {σ : Type} (H : SetHandler σ) (hL : H.Lawful) (e : Enc) (st : σ) (s : List Nat) :
    ∃ st' v p, parseSet H e st (91 :: s) = some (st', v, p) ∧ p <:+ 91 :: s := by
  have key : ∀ (st : σ) (s1 : List Nat), s1 <:+ 91 :: s →
      ∃ st' v p, setFinish H (91 :: s) (setLoop H e (s1.length + 1) st s1) = some (st', v, p) ∧ p <:+ 91 :: s := by
    intro st s1 hs1
    obtain ⟨st', b, p, h1, h2⟩ := setLoop_steps H hL e (s1.length + 1) st s1 (by omega)
    rw [h1]
    cases b
    · exact ⟨_, _, _, rfl, h2.trans hs1⟩
    · exact ⟨_, _, _, rfl, h2.trans hs1⟩
  simp only [parseSet]
  split
  · exact ⟨_, _, _, rfl, List.nil_suffix⟩
  · rename_i s2
    have hs2 : s2 <:+ 91 :: 94 :: s2 := (List.suffix_cons 94 s2).trans (List.suffix_cons 91 _)
    split
    · exact ⟨_, _, _, rfl, List.nil_suffix⟩
    · rename_i s3
      exact key _ _ ((List.suffix_cons 93 s3).trans hs2)
    · exact key _ _ hs2
  · rename_i s2
    exact ⟨_, _, _, rfl, (List.suffix_cons 93 s2).trans (List.suffix_cons 91 _)⟩
  · exact key _ _ (List.suffix_cons 91 _)

theorem regexEnd_suffix (s : List Nat) : ∀ prev, (regexEnd prev s).2 <:+ s := by
  induction s with
  | nil => intro prev; exact List.suffix_refl _
  | cons c cs ih =>
    intro prev
    simp only [regexEnd]
    split
    · split
      · exact List.suffix_refl _
      · exact suffix_cons_of (ih _)
    · exact suffix_cons_of (ih _)

theorem regexFlags_suffix (cfg : RegexCfg) (s : List Nat) : ∀ st f, (regexFlags cfg st f s).2.2.2 <:+ s := by
  induction s with
  | nil => intro st f; exact List.suffix_refl _
  | cons c cs ih =>
    intro st f
    simp only [regexFlags]
    split
    · exact List.suffix_refl _
    · split
      · exact List.suffix_refl _
      · split
        · exact List.suffix_refl _
        · exact suffix_cons_of (ih _ _)

theorem parseRegex_steps (cfg : RegexCfg) (e : Enc) (st : Setter) (s : List Nat) :
    StepsTo (parseRegex cfg e st (47 :: s)) (47 :: s) := by
  simp only [parseRegex]
  split
  · exact ⟨_, _, rfl, List.suffix_refl _⟩
  · split
    · exact ⟨_, _, rfl, List.nil_suffix⟩
    · have h1 := regexEnd_suffix s 47
      split
      · exact ⟨_, _, rfl, List.nil_suffix⟩
      · rename_i slash s2 heq
        rw [heq] at h1
        have h2 : s2 <:+ 47 :: s := suffix_cons_of ((List.suffix_cons slash s2).trans h1)
        split
        · exact ⟨_, _, rfl, suffix_cons_of h1⟩
        · split
          · exact ⟨_, _, rfl, List.nil_suffix⟩
          · split
            · rename_i st' x p heq2
              have := regexFlags_suffix cfg s2
                ((st.onType (if (regexEnd 47 s).1 = true then Pres.regexEscaped else Pres.regex)).onRegexPattern
                  (List.take (s.length - (slash :: s2).length) s)) 0
              first
                | (rw [heq2] at this; exact ⟨_, _, rfl, this.trans h2⟩)
                | (rw [← heq] at this; rw [heq2] at this; exact ⟨_, _, rfl, this.trans h2⟩)
            · rename_i st' f p heq2
              have := regexFlags_suffix cfg s2
                ((st.onType (if (regexEnd 47 s).1 = true then Pres.regexEscaped else Pres.regex)).onRegexPattern
                  (List.take (s.length - (slash :: s2).length) s)) 0
              have hp : p <:+ s2 := by
                first
                  | (rw [heq2] at this; exact this)
                  | (rw [← heq] at this; rw [heq2] at this; exact this)
              split
              · exact ⟨_, _, rfl, List.nil_suffix⟩
              · exact ⟨_, _, rfl, hp.trans h2⟩

theorem parsePresType_some (c : Nat) (h1 : c ≠ 91) (h2 : c ≠ 47) : ∃ t, parsePresType c = some t := by
  rw [← Option.isSome_iff_exists]
  have h3 : ¬ (c = 91 ∨ c = 47) := by omega
  unfold parsePresType
  rw [if_neg h3]
  simp only [apply_ite Option.isSome, Option.isSome_some, ite_self]

theorem parsePresentation_steps (cfg : RegexCfg) (e : Enc) (st : Setter) (s : List Nat) (hs : s ≠ []) :
    StepsTo (parsePresentation cfg e st s) s := by
  cases s with
  | nil => exact absurd rfl hs
  | cons c cs =>
    simp only [parsePresentation]
    split
    · rename_i hc; subst hc
      obtain ⟨st', v, p, h1, h2⟩ := parseSet_steps setterSet setterSet_lawful e st cs
      simp only [h1]
      split
      · exact ⟨_, _, rfl, h2⟩
      · exact ⟨_, _, rfl, h2⟩
    · split
      · rename_i _ hc; subst hc
        exact parseRegex_steps cfg e st cs
      · rename_i h91 h47
        obtain ⟨t, ht⟩ := parsePresType_some c h91 h47
        rw [ht]
        cases t <;> exact ⟨_, _, rfl, List.suffix_cons _ _⟩

theorem unlessEnd_steps {r : Option (Setter × List Nat)} {k : Setter → List Nat → Option (Setter × List Nat)}
    {s : List Nat} (hr : StepsTo r s)
    (hk : ∀ st p, p ≠ [] → p <:+ s → StepsTo (k st p) s) : StepsTo (unlessEnd r k) s := by
  obtain ⟨st, p, rfl, hp⟩ := hr
  cases p with
  | nil => exact ⟨_, _, rfl, List.nil_suffix⟩
  | cons c cs => exact hk st _ (by simp) hp

theorem StepsTo.trans {α : Type} {r : Option (α × List Nat)} {s t : List Nat} (h : StepsTo r s) (hst : s <:+ t) :
    StepsTo r t := by
  obtain ⟨a, p, h1, h2⟩ := h
  exact ⟨a, p, h1, h2.trans hst⟩

/-- `parse_format_specs` never reads outside the format string and returns a position in it,
    unless the `SCN_ENSURE(false)` for `L` in specifications of `regex_matches` arguments is reached. -/
theorem parseSpecs_steps (cfg : RegexCfg) (e : Enc) (ty : ArgTy) (st : Setter) (s : List Nat)
    (hty : ty.category ≠ none ∨ 76 ∉ s) : StepsTo (parseSpecs cfg e ty st s) s := by
  have hloc : ty.category ≠ none → ∀ st : Setter, ∃ st', st.onLocalized ty = some st' := by
    intro hty st
    simp only [Setter.onLocalized]
    cases hcat : ty.category with
    | none => exact absurd hcat hty
    | some c => dsimp only; split <;> exact ⟨_, rfl⟩
  have hlong : StepsTo (unlessEnd (some (st, s)) fun st s =>
    unlessEnd (parseAlign e st s) fun st s =>
    unlessEnd (parseWidth st s) fun st s =>
    unlessEnd (match s with
      | 46 :: s1 => unlessEnd (some (st, s1)) fun st s => unlessEnd (parsePrecision st s) fun st s => some (st, s)
      | s => some (st, s)) fun st s =>
    unlessEnd (match s with
      | 76 :: s1 => (st.onLocalized ty).map fun st => (st, s1)
      | s => some (st, s)) fun st s =>
    unlessEnd (match s with
      | 125 :: _ => some (st, s)
      | s => parsePresentation cfg e st s) fun st s => some (st, s)) s := by
    refine unlessEnd_steps ⟨_, _, rfl, List.suffix_refl _⟩ fun st p hp hps => ?_
    refine unlessEnd_steps ((parseAlign_steps e st p hp).trans hps) fun st p hp hps => ?_
    refine unlessEnd_steps ((parseWidth_steps st p hp).trans hps) fun st p hp hps => ?_
    refine unlessEnd_steps ?_ fun st p hp hps => ?_
    · split
      · rename_i s1
        have h1 : s1 <:+ s := (List.suffix_cons 46 s1).trans hps
        refine unlessEnd_steps ⟨_, _, rfl, h1⟩ fun st p hp hps => ?_
        refine unlessEnd_steps ((parsePrecision_steps st p hp).trans hps) fun st p hp hps => ?_
        exact ⟨_, _, rfl, hps⟩
      · exact ⟨_, _, rfl, hps⟩
    refine unlessEnd_steps ?_ fun st p hp hps => ?_
    · split
      · rename_i s1
        obtain ⟨st', h'⟩ := hloc (hty.resolve_right fun h => h (hps.subset List.mem_cons_self)) st
        rw [h']
        exact ⟨_, _, rfl, (List.suffix_cons 76 s1).trans hps⟩
      · exact ⟨_, _, rfl, hps⟩
    refine unlessEnd_steps ?_ fun st p hp hps => ⟨_, _, rfl, hps⟩
    split
    · exact ⟨_, _, rfl, hps⟩
    · exact (parsePresentation_steps cfg e st p hp).trans hps
  simp only [parseSpecs]
  split
  · split
    · exact parsePresentation_steps cfg e st _ (by simp)
    · exact hlong
  · exact hlong

end Scn
