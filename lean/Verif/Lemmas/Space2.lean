import Verif.Lemmas.Space
import Verif.Spec.Space
/-
Reading algorithms on encoded sources, for all layouts.
-/
namespace Scn
open Spec

theorem isSpace_eq (cp : Nat) : isCpSpace cp = isSpace cp := by
  rw [Bool.eq_iff_iff, isCpSpace_iff, isSpace, List.contains_iff_mem]

theorem encodes_nil (e : Enc) : encodes e [] = [] := rfl
theorem encodes_cons (e : Enc) (cp : Nat) (cps : List Nat) :
    encodes e (cp :: cps) = encode e cp ++ encodes e cps := by rw [encodes, List.flatMap_cons]; rfl
theorem encodes_append (e : Enc) (a b : List Nat) : encodes e (a ++ b) = encodes e a ++ encodes e b := by
  rw [encodes, List.flatMap_append]; rfl
theorem encodes_utf8 (cps : List Nat) : encodes .utf8 cps = utf8s cps := rfl
theorem encodes_utf16 (cps : List Nat) : encodes .utf16 cps = utf16s cps := rfl
theorem encodes_utf32 (cps : List Nat) : encodes .utf32 cps = cps := by
  induction cps with
  | nil => rfl
  | cons a l ih => rw [encodes_cons, ih]; rfl

/-- An encoded scalar value: its first unit announces its length and it decodes to itself. -/
theorem encode_head (e : Enc) (cp : Nat) (h : IsScalar cp) :
    ∃ c cs, encode e cp = c :: cs ∧ cpLength e c = (c :: cs).length ∧ decodeCp e (c :: cs) = some cp := by
  cases e with
  | utf8 =>
    obtain ⟨c, cs, h1, h2, h3⟩ := loose_prefix (utf8 cp) [] (utf8_loose cp h.1).1 (utf8_bytes cp h.1)
    rw [List.append_nil] at h1
    refine ⟨c, cs, h1, by rw [← h1]; exact h2, ?_⟩
    have hg := getNext_utf8 cp h.1 []
    rw [List.append_nil, h1] at hg
    rw [h1] at h2
    have hd := decodeCp_total .utf8 c (c :: cs) (by rw [cpLength, h2]; simp) (by rw [cpLength, h2])
    obtain ⟨v, hv⟩ := hd
    rw [getNext_of (L := (c :: cs).length) (cp := v) (by rw [cpLength, h2]) (by simp) (Nat.le_refl _)
      (by rw [List.take_length]; exact hv)] at hg
    simp only [Option.some.injEq, Prod.mk.injEq] at hg
    rw [hv, hg.2]
  | utf16 =>
    obtain ⟨h1, h2⟩ := h
    simp only [encode, utf16]
    split
    · refine ⟨cp, [], rfl, ?_, rfl⟩
      rw [cpLength, cpLength16_eq cp (by omega), if_neg (by omega), if_neg (by omega)]; rfl
    · refine ⟨_, _, rfl, ?_, ?_⟩
      · rw [cpLength, cpLength16_eq _ (by omega), if_pos (by omega)]; rfl
      · rw [decodeCp, decodeUtf16, if_neg (by omega), or_shift _ _ 10 (by omega), Option.some.injEq]
        omega
  | utf32 =>
    refine ⟨cp, [], rfl, rfl, ?_⟩
    simp only [decodeCp]
    have := h.1
    rw [if_neg (by unfold invalidCp; omega)]

theorem encode_ne_nil (e : Enc) (cp : Nat) : encode e cp ≠ [] := by
  cases e with
  | utf8 =>
    rcases utf8_cases cp with ⟨_, h⟩ | ⟨_, h⟩ | ⟨_, h⟩ | ⟨_, h⟩ <;> simp [encode, h]
  | utf16 => simp only [encode, utf16]; split <;> simp
  | utf32 => simp [encode]

theorem encodes_eq_nil (e : Enc) (cps : List Nat) : encodes e cps = [] ↔ cps = [] := by
  cases cps with
  | nil => simp [encodes_nil]
  | cons a l => rw [encodes_cons]; simp [encode_ne_nil]

theorem getNext_encode (e : Enc) (cp : Nat) (h : IsScalar cp) (rest : List Nat) :
    getNext e (encode e cp ++ rest) = some (rest, cp) := by
  obtain ⟨c, cs, h1, h2, h3⟩ := encode_head e cp h
  rw [h1, List.cons_append, getNext_of (L := (c :: cs).length) (cp := cp) h2 (by simp)
    (by simp) (by rw [← List.cons_append, List.take_left]; exact h3),
    ← List.cons_append, List.drop_left]

theorem readCpInto_encode (e : Enc) (cp : Nat) (h : IsScalar cp) (rest : List Nat) :
    readCpInto e (encode e cp ++ rest) = some (rest, encode e cp) := by
  obtain ⟨c, cs, h1, h2, h3⟩ := encode_head e cp h
  rw [h1]
  simp only [List.cons_append, readCpInto]
  rw [h2, if_neg (by simp)]
  by_cases h1' : (c :: cs).length = 1
  · have : cs = [] := by cases cs with
      | nil => rfl
      | cons => simp at h1'
    subst this
    rw [if_pos h1', List.nil_append]
  · rw [if_neg h1', ← List.cons_append, List.drop_left, List.take_left]

theorem readCpInto_length {e : Enc} {s r u : List Nat} (h : readCpInto e s = some (r, u)) :
    r.length < s.length := by
  cases s with
  | nil => simp [readCpInto] at h
  | cons c cs =>
    simp only [readCpInto] at h
    by_cases h0 : cpLength e c = 0
    · rw [if_pos h0] at h
      simp only [Option.some.injEq, Prod.mk.injEq] at h
      rw [← h.1, List.length_cons]
      have : (startNext e cs).length ≤ cs.length := by
        unfold startNext
        have := congrArg List.length (List.takeWhile_append_dropWhile (p := fun c => decide (cpLength e c = 0)) (l := cs))
        rw [List.length_append] at this
        omega
      omega
    · rw [if_neg h0] at h
      by_cases h1 : cpLength e c = 1
      · rw [if_pos h1] at h
        simp only [Option.some.injEq, Prod.mk.injEq] at h
        rw [← h.1, List.length_cons]; omega
      · rw [if_neg h1] at h
        simp only [Option.some.injEq, Prod.mk.injEq] at h
        rw [← h.1, List.length_drop, List.length_cons]; omega

theorem readUntilCpAux_mono (e : Enc) (pred : Nat → Bool) (n m : Nat) (s : List Nat) (h : s.length ≤ n)
    (h' : s.length ≤ m) : readUntilCpAux e pred n s = readUntilCpAux e pred m s := by
  induction n generalizing s m with
  | zero =>
    cases s with
    | nil => simp [readUntilCpAux]
    | cons c cs => simp at h
  | succ n ih =>
    cases s with
    | nil => simp [readUntilCpAux]
    | cons c cs =>
      cases m with
      | zero => simp at h'
      | succ m =>
        rw [readUntilCpAux, readUntilCpAux]
        cases hg : readCpInto e (c :: cs) with
        | none => rfl
        | some r =>
          obtain ⟨rest, u⟩ := r
          have := readCpInto_length hg
          dsimp only
          rw [ih m rest (by simp at this h; omega) (by simp at this h'; omega)]

theorem readUntilCp_nil (e : Enc) (pred : Nat → Bool) : readUntilCp e pred [] = some [] := by
  simp [readUntilCp, readUntilCpAux]

theorem readUntilCp_step (e : Enc) (pred : Nat → Bool) (s rest u : List Nat)
    (h : readCpInto e s = some (rest, u)) :
    readUntilCp e pred s = if u = [] then readUntilCp e pred rest
      else match decodeCp e u with
        | none => none
        | some cp => if pred cp then some s else readUntilCp e pred rest := by
  have hl := readCpInto_length h
  cases s with
  | nil => simp [readCpInto] at h
  | cons c cs =>
    unfold readUntilCp
    rw [List.length_cons, readUntilCpAux, h]
    dsimp only
    rw [readUntilCpAux_mono e pred cs.length rest.length rest (by simp at hl; omega) (Nat.le_refl _)]
    rfl

theorem readUntilCp_encodes (e : Enc) (pred : Nat → Bool) (cps : List Nat) (h : ∀ cp ∈ cps, IsScalar cp) :
    readUntilCp e pred (encodes e cps) = some (encodes e (cps.dropWhile (fun cp => ! pred cp))) := by
  induction cps with
  | nil => rw [encodes_nil, readUntilCp_nil]; rfl
  | cons cp cps ih =>
    have hs := h cp (by simp)
    obtain ⟨c, cs, h1, h2, h3⟩ := encode_head e cp hs
    rw [encodes_cons, readUntilCp_step e pred _ _ _ (readCpInto_encode e cp hs _), if_neg (encode_ne_nil e cp),
      h1, h3]
    dsimp only
    cases hp : pred cp with
    | true =>
      rw [List.dropWhile_cons_of_neg (by simp [hp]), encodes_cons, h1]; simp
    | false =>
      rw [List.dropWhile_cons_of_pos (by simp [hp])]
      simp only [Bool.false_eq_true, if_false]
      exact ih (fun x hx => h x (by simp [hx]))

/-- A truncated or invalid element decodes to the invalid marker when cut off at the end. -/
theorem decode8_truncated (c : Nat) (cs : List Nat) (hc : c < 256) (h : (c :: cs).length < cpLength8 c) :
    decodeUtf8 (c :: cs) = some invalidCp := by
  rw [cpLength8_eq c hc] at h
  simp only [List.length_cons] at h
  match cs with
  | [] => rw [dec1, if_neg (by intro h'; rw [if_pos h'] at h; simp at h)]
  | [b] =>
    rw [dec2 _ _ hc, if_neg]
    intro h'
    rw [if_neg (by omega), if_neg (by omega), if_pos (by omega)] at h
    simp at h
  | [b, d] =>
    rw [dec3 _ _ _ hc, if_neg]
    intro h'
    rw [if_neg (by omega), if_neg (by omega), if_neg (by omega), if_pos (by omega)] at h
    simp at h
  | b :: d :: f :: g =>
    exfalso
    have : (if c < 128 then 1 else if c < 192 then 0 else if c < 224 then 2
      else if c < 240 then 3 else if c < 248 then 4 else 0) ≤ 4 := by repeat' split
                                                                      all_goals decide
    simp only [List.length_cons] at h
    omega

/-- The per-code-point reader used on non-contiguous sources equals the reference search on
    every byte string, when the predicate rejects the invalid marker. -/
theorem readUntilCp_ref_aux (pred : Nat → Bool) (hp : pred invalidCp = false) (n : Nat) (s : List Nat)
    (hn : s.length ≤ n) (hb : ∀ b ∈ s, b < 256) : readUntilCp .utf8 pred s = refFind .utf8 pred s := by
  induction n generalizing s with
  | zero =>
    cases s with
    | nil => rw [refFind_nil, readUntilCp_nil]
    | cons c cs => simp at hn
  | succ n ih =>
    cases s with
    | nil => rw [refFind_nil, readUntilCp_nil]
    | cons c cs =>
      have hc := hb c (by simp)
      by_cases h0 : cpLength .utf8 c = 0
      · have hr : readCpInto .utf8 (c :: cs) = some (startNext .utf8 cs, []) := by
          simp only [readCpInto]; rw [if_pos h0]
        have hg : getNext .utf8 (c :: cs) = some (startNext .utf8 cs, invalidCp) := by
          have : startNext .utf8 (c :: cs) = startNext .utf8 cs := by
            simp only [startNext]
            rw [List.dropWhile_cons_of_pos (by simpa using h0)]
          simp only [getNext]
          rw [if_pos h0, this]
        have hl := readCpInto_length hr
        rw [readUntilCp_step _ _ _ _ _ hr, refFind_step _ _ _ _ _ hg, if_pos rfl, hp]
        simp only [Bool.false_eq_true, if_false]
        exact ih _ (by simp at hn hl; omega) (fun b hb' => hb b (List.mem_cons_of_mem _
          (List.dropWhile_sublist _ |>.mem hb')))
      · by_cases hlt : (c :: cs).length < cpLength .utf8 c
        · have hlen : cpLength .utf8 c ≠ 1 := by intro h1; rw [h1] at hlt; simp at hlt
          have hr : readCpInto .utf8 (c :: cs) = some ([], c :: cs) := by
            simp only [readCpInto]
            rw [if_neg h0, if_neg hlen, List.drop_eq_nil_of_le (by omega), List.take_of_length_le (by omega)]
          have hg : getNext .utf8 (c :: cs) = some ([], invalidCp) := by
            simp only [getNext]
            rw [if_neg h0, if_pos hlt]
          rw [readUntilCp_step _ _ _ _ _ hr, refFind_step _ _ _ _ _ hg, if_neg (by simp), decodeCp,
            decode8_truncated c cs hc hlt]
          dsimp only
          rw [hp]
          simp only [Bool.false_eq_true, if_false]
          rw [refFind_nil, readUntilCp_nil]
        · obtain ⟨cp, hd⟩ := decodeCp_total .utf8 c ((c :: cs).take (cpLength .utf8 c)) h0
            (by rw [List.length_take]; omega)
          have hr : readCpInto .utf8 (c :: cs) = some ((c :: cs).drop (cpLength .utf8 c), (c :: cs).take (cpLength .utf8 c)) := by
            simp only [readCpInto]
            rw [if_neg h0]
            by_cases h1 : cpLength .utf8 c = 1
            · rw [if_pos h1, h1]; rfl
            · rw [if_neg h1]
          have hg : getNext .utf8 (c :: cs) = some ((c :: cs).drop (cpLength .utf8 c), cp) :=
            getNext_of rfl h0 (by omega) hd
          have hl := readCpInto_length hr
          have hne : (c :: cs).take (cpLength .utf8 c) ≠ [] := by
            intro h; have := congrArg List.length h
            rw [List.length_take] at this; simp at this; omega
          rw [readUntilCp_step _ _ _ _ _ hr, refFind_step _ _ _ _ _ hg, if_neg hne, hd]
          dsimp only
          rw [ih _ (by simp only [List.length_cons] at hn hl; omega) (fun b hb' => hb b (List.mem_of_mem_drop hb'))]

theorem utf8s_bytes (cps : List Nat) (h : ∀ cp ∈ cps, IsScalar cp) : ∀ b ∈ utf8s cps, b < 256 := by
  intro b hb
  obtain ⟨cp, hc, hb⟩ := List.mem_flatMap.1 hb
  exact utf8_bytes cp (h cp hc).1 b hb

/-- A segment split is harmless when it falls between two code points. -/
def GoodLayout (e : Enc) (l : Layout) (cps : List Nat) : Prop :=
  match e, l with
  | .utf8, .segmented k => ∃ a b, cps = a ++ b ∧ (utf8s cps).take k = utf8s a
  | _, _ => True

theorem dropWhile_split {α : Type} (p : α → Bool) (a b : List α) :
    (a ++ b).dropWhile p = if a.dropWhile p = [] then b.dropWhile p else a.dropWhile p ++ b := by
  induction a with
  | nil => simp
  | cons x a ih =>
    rw [List.cons_append]
    cases hx : p x with
    | true => rw [List.dropWhile_cons_of_pos hx, List.dropWhile_cons_of_pos hx, ih]
    | false => rw [List.dropWhile_cons_of_neg (by simp [hx]), List.dropWhile_cons_of_neg (by simp [hx])]; simp

theorem utf8s_append (a b : List Nat) : utf8s (a ++ b) = utf8s a ++ utf8s b := by
  rw [utf8s, List.flatMap_append]; rfl

theorem drop_suffix {α : Type} (p : α → Bool) (e : α → List Nat) (a b : List α)
    (k : Nat) (hk : k = (a.flatMap e).length - ((a.dropWhile p).flatMap e).length) :
    ((a ++ b).flatMap e).drop k = (a.dropWhile p).flatMap e ++ b.flatMap e := by
  have h := List.takeWhile_append_dropWhile (p := p) (l := a)
  have h2 : a.flatMap e = (a.takeWhile p).flatMap e ++ (a.dropWhile p).flatMap e := by
    rw [← List.flatMap_append, h]
  have hk' : k = ((a.takeWhile p).flatMap e).length := by rw [hk, h2, List.length_append]; omega
  rw [List.flatMap_append, h2, List.append_assoc, hk', List.drop_left]

theorem readUntilSpace_encodes (e : Enc) (l : Layout) (cps : List Nat) (h : ∀ cp ∈ cps, IsScalar cp)
    (hl : GoodLayout e l cps) :
    readUntilSpace e l (encodes e cps) = some (encodes e (cps.dropWhile (fun cp => ! isSpace cp))) := by
  have hpred : (fun cp => ! isCpSpace cp) = fun cp => ! isSpace cp := funext fun cp => by rw [isSpace_eq]
  cases e with
  | utf8 =>
    have hb := utf8s_bytes cps h
    cases l with
    | contiguous =>
      simp only [readUntilSpace, encodes_utf8]
      rw [findSpace_ref _ hb, refFind_utf8s _ cps (fun cp hc => (h cp hc).1), hpred]
    | segmented k =>
      obtain ⟨a, b, rfl, hk⟩ := hl
      have ha : ∀ cp ∈ a, IsScalar cp := fun cp hc => h cp (List.mem_append_left _ hc)
      have hbb : ∀ cp ∈ b, IsScalar cp := fun cp hc => h cp (List.mem_append_right _ hc)
      simp only [readUntilSpace, encodes_utf8]
      rw [hk, findSpace_ref _ (utf8s_bytes a ha), refFind_utf8s _ a (fun cp hc => (ha cp hc).1), hpred]
      dsimp only
      rw [dropWhile_split]
      by_cases hn : a.dropWhile (fun cp => ! isSpace cp) = []
      · rw [hn, if_neg (by simp [utf8s]), if_pos rfl]
        have hd : (utf8s (a ++ b)).drop (utf8s a).length = utf8s b := by
          rw [utf8s_append]; exact List.drop_left
        rw [hd]
        have := readUntilCp_encodes .utf8 isCpSpace b hbb
        rw [hpred] at this
        exact this
      · rw [if_pos (by rw [← encodes_utf8, Ne, encodes_eq_nil]; exact hn), if_neg hn]
        congr 1
        rw [utf8s_append (List.dropWhile _ a)]
        exact drop_suffix (fun cp => ! isSpace cp) utf8 a b _ rfl
  | utf16 => simp only [readUntilSpace]; rw [readUntilCp_encodes .utf16 _ cps h, hpred]
  | utf32 => simp only [readUntilSpace]; rw [readUntilCp_encodes .utf32 _ cps h, hpred]

theorem readWhileSpace_encodes (e : Enc) (l : Layout) (cps : List Nat) (h : ∀ cp ∈ cps, IsScalar cp)
    (hl : GoodLayout e l cps) :
    readWhileSpace e l (encodes e cps) = some (encodes e (cps.dropWhile isSpace)) := by
  have hpred : isCpSpace = isSpace := funext fun cp => isSpace_eq cp
  have hnn : ∀ x : List Nat, x.dropWhile (fun cp => ! ! isSpace cp) = x.dropWhile isSpace := by
    intro x; congr 1; funext cp; rw [Bool.not_not]
  cases e with
  | utf8 =>
    have hb := utf8s_bytes cps h
    cases l with
    | contiguous =>
      simp only [readWhileSpace, encodes_utf8]
      rw [findNonspace_ref _ hb, refFind_utf8s _ cps (fun cp hc => (h cp hc).1), hpred, hnn]
    | segmented k =>
      obtain ⟨a, b, rfl, hk⟩ := hl
      have ha : ∀ cp ∈ a, IsScalar cp := fun cp hc => h cp (List.mem_append_left _ hc)
      have hbb : ∀ cp ∈ b, IsScalar cp := fun cp hc => h cp (List.mem_append_right _ hc)
      simp only [readWhileSpace, encodes_utf8]
      rw [hk, findNonspace_ref _ (utf8s_bytes a ha), refFind_utf8s _ a (fun cp hc => (ha cp hc).1), hpred, hnn]
      dsimp only
      by_cases hn : a.dropWhile isSpace = []
      · rw [hn, if_neg (by simp [utf8s])]
        have := readUntilCp_encodes .utf8 (fun cp => ! isSpace cp) (a ++ b) h
        rw [hnn] at this
        exact this
      · rw [dropWhile_split, if_pos (by rw [← encodes_utf8, Ne, encodes_eq_nil]; exact hn), if_neg hn]
        congr 1
        rw [utf8s_append (List.dropWhile _ a)]
        exact drop_suffix isSpace utf8 a b _ rfl
  | utf16 =>
    simp only [readWhileSpace, readWhileCp]; rw [readUntilCp_encodes .utf16 _ cps h, hpred, hnn]
  | utf32 =>
    simp only [readWhileSpace, readWhileCp]; rw [readUntilCp_encodes .utf32 _ cps h, hpred, hnn]

end Scn
