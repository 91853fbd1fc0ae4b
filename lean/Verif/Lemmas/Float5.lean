import Verif.Lemmas.Float4
/-
Numbers with the separator and the point of a locale.
-/
namespace Scn
open Spec

theorem digit_ge {base c : Nat} (h : IsDigit base c) : 43 ≤ c := by
  obtain ⟨d, hd, _⟩ := h
  unfold digit? at hd
  repeat' split at hd
  all_goals first | omega | cases hd

theorem dec_ge {f s : Bool} {t : List Nat} (h : DecText f s t) : ∀ c ∈ t, 43 ≤ c := by
  obtain ⟨m, x, rfl, ⟨i, g, rfl, h1, h2, _⟩, h3⟩ := h
  intro c hc
  rcases List.mem_append.1 hc with hc | hc
  · rcases List.mem_append.1 hc with hc | hc
    · exact digit_ge (h1 c hc)
    · rcases h2 with rfl | ⟨ds, rfl, h2⟩
      · cases hc
      · rcases List.mem_cons.1 hc with rfl | hc
        · decide
        · exact digit_ge (h2 c hc)
  · rcases h3 with ⟨rfl, _⟩ | ⟨_, l, sg, ds, rfl, hl, hsg, _, hds⟩
    · cases hc
    · rcases List.mem_cons.1 hc with rfl | hc
      · simp at hl; omega
      · rcases List.mem_append.1 hc with hc | hc
        · rcases hsg with rfl | rfl | rfl
          · cases hc
          · simp at hc; omega
          · simp at hc; omega
        · exact digit_ge (hds c hc)

/-- What is dropped. -/
def isSep (loc : FloatLoc) (c : Nat) : Bool := loc.sep != 0 && c == loc.sep

theorem delocalize_def (loc : FloatLoc) (t : List Nat) : delocalize loc t = (t.filter fun c => !isSep loc c).map fun c => if c = loc.point then 46 else c := rfl

theorem delocalize_append (loc : FloatLoc) (a b : List Nat) : delocalize loc (a ++ b) = delocalize loc a ++ delocalize loc b := by
  simp [delocalize]

/-- Units that are neither are kept. -/
theorem delocalize_keep {loc : FloatLoc} {a : List Nat} (h : ∀ c ∈ a, c ≠ loc.point ∧ isSep loc c = false) : delocalize loc a = a := by
  induction a with
  | nil => rfl
  | cons x a ih =>
    have hx := h x (by simp)
    have := ih (fun c hc => h c (by simp [hc]))
    rw [delocalize_def] at this ⊢
    rw [List.filter_cons, if_pos (by simp [hx.2]), List.map_cons, this, if_neg hx.1]

theorem delocalize_digits {loc : FloatLoc} (hl : LocOk loc) {i : List Nat} (h : ∀ c ∈ i, LocDigit loc 10 c) : ∀ c ∈ delocalize loc i, IsDigit 10 c := by
  intro c hc
  rw [delocalize_def, List.mem_map] at hc
  obtain ⟨d, hd, rfl⟩ := hc
  rw [List.mem_filter] at hd
  rcases h d hd.1 with h | ⟨h1, h2⟩
  · rw [if_neg (by rintro rfl; exact hl.1.1 h)]; exact h
  · exfalso
    have : isSep loc d = true := by unfold isSep; simp [h1, h2]
    rw [this] at hd
    exact absurd hd.2 (by decide)

theorem keep_digit {loc : FloatLoc} (hl : LocOk loc) {c : Nat} (h : IsDigit 10 c) : c ≠ loc.point ∧ isSep loc c = false := by
  refine ⟨by rintro rfl; exact hl.1.1 h, ?_⟩
  unfold isSep
  by_cases h0 : loc.sep = 0
  · simp [h0]
  · have := (hl.2 h0).1
    have : c ≠ loc.sep := by rintro rfl; exact this h
    simp [this]

theorem keep_exponent {loc : FloatLoc} (hl : LocOk loc) {x : List Nat} (h : Exponent [101, 69] x) : ∀ c ∈ x, c ≠ loc.point ∧ isSep loc c = false := by
  have key : ∀ c, c ∈ [101, 69, 43, 45] → c ≠ loc.point ∧ isSep loc c = false := by
    intro c hc
    refine ⟨by rintro rfl; exact hl.1.2 hc, ?_⟩
    unfold isSep
    by_cases h0 : loc.sep = 0
    · simp [h0]
    · have := (hl.2 h0).2.1
      have : c ≠ loc.sep := by rintro rfl; exact this hc
      simp [this]
  obtain ⟨l, sg, ds, rfl, h1, h2, _, h3⟩ := h
  intro c hc
  rcases List.mem_cons.1 hc with rfl | hc
  · apply key; simp at h1 ⊢; omega
  · rcases List.mem_append.1 hc with hc | hc
    · apply key
      rcases h2 with rfl | rfl | rfl
      · cases hc
      · simp at hc; simp [hc]
      · simp at hc; simp [hc]
    · exact keep_digit hl (h3 c hc)

theorem point_isSep {loc : FloatLoc} (hl : LocOk loc) : isSep loc loc.point = false := by
  unfold isSep
  by_cases h0 : loc.sep = 0
  · simp [h0]
  · have : loc.point ≠ loc.sep := fun h => (hl.2 h0).2.2.1 h.symm
    simp [this]

/-- Without the locale, it is a number. -/
theorem delocalize_dec {loc : FloatLoc} (hl : LocOk loc) {f s : Bool} {t : List Nat} (h : LocDecText loc f s t) {c : Nat} {cs : List Nat} (ht : t = c :: cs) (hc : IsDigit 10 c) :
    DecText f s (delocalize loc t) ∧ ∃ ds, delocalize loc t = c :: ds := by
  have hhead : ∃ ds, delocalize loc t = c :: ds := by
    rw [ht, show c :: cs = [c] ++ cs from rfl, delocalize_append, delocalize_keep (a := [c])]
    · exact ⟨_, rfl⟩
    · intro d hd
      simp at hd; subst hd
      exact keep_digit hl hc
  refine ⟨?_, hhead⟩
  obtain ⟨m, x, rfl, ⟨i, g, rfl, h1, h2, h3⟩, h4⟩ := h
  have hi : i ≠ [] := by
    rintro rfl
    rcases h2 with rfl | ⟨ds, rfl, _⟩
    · simp at h3
    · have : loc.point = c := (List.cons.inj ht).1
      exact hl.1.1 (this ▸ hc)
  have hi' : delocalize loc i ≠ [] := by
    cases i with
    | nil => exact absurd rfl hi
    | cons a i =>
      have : a = c := (List.cons.inj ht).1
      subst this
      rw [show a :: i = [a] ++ i from rfl, delocalize_append, delocalize_keep (a := [a])]
      · simp
      · intro d hd
        simp at hd; subst hd
        exact keep_digit hl hc
  have hx : delocalize loc x = x := by
    rcases h4 with ⟨rfl, _⟩ | ⟨_, h4⟩
    · rfl
    · exact delocalize_keep (keep_exponent hl h4)
  refine ⟨delocalize loc (i ++ g), x, by rw [delocalize_append loc (i ++ g) x, hx], ?_, h4⟩
  refine ⟨delocalize loc i, delocalize loc g, delocalize_append loc i g, delocalize_digits hl h1, ?_, Or.inl hi'⟩
  rcases h2 with rfl | ⟨ds, rfl, h2⟩
  · exact Or.inl rfl
  · right
    refine ⟨ds, ?_, h2⟩
    rw [show loc.point :: ds = [loc.point] ++ ds from rfl, delocalize_append, delocalize_keep (a := ds) (fun d hd => keep_digit hl (h2 d hd))]
    rw [delocalize_def, List.filter_cons, if_pos (by simp [point_isSep hl])]
    simp

theorem delocalize_comm {loc : FloatLoc} (hl : LocOk loc) (t : List Nat) (h0 : loc.sep ≠ 0) :
    (t.map fun c => if c = loc.point then 46 else c).filter (· ≠ loc.sep) = delocalize loc t := by
  induction t with
  | nil => rfl
  | cons x t ih =>
    have h46 := (hl.2 h0).2.2.2
    have hsp := (hl.2 h0).2.2.1
    rw [delocalize_def] at ih ⊢
    rw [List.map_cons]
    by_cases hp : x = loc.point
    · subst hp
      rw [if_pos rfl, List.filter_cons, if_pos (show decide (46 ≠ loc.sep) = true by simp; omega), List.filter_cons, if_pos (by simp [point_isSep hl]), List.map_cons, if_pos rfl, ih]
    · rw [if_neg hp]
      by_cases hs : x = loc.sep
      · subst hs
        rw [List.filter_cons, if_neg (by simp), List.filter_cons, if_neg (by unfold isSep; simp [h0]), ih]
      · rw [List.filter_cons, if_pos (by simp [hs]), List.filter_cons, if_pos (by unfold isSep; simp [hs]), List.map_cons, if_neg hp, ih]

theorem delocalize_nosep {loc : FloatLoc} (t : List Nat) (h : loc.sep = 0 ∨ loc.sep ∉ t) : delocalize loc t = t.map fun c => if c = loc.point then 46 else c := by
  rw [delocalize_def, List.filter_eq_self.2]
  intro c hc
  unfold isSep
  rcases h with h | h
  · simp [h]
  · have : c ≠ loc.sep := by rintro rfl; exact h hc
    simp [this]

/-- `handle_separators`: what `strtod` gets, what the other conversion sees, and the number of separators. -/
theorem separators_loc {loc : FloatLoc} (hl : LocOk loc) (hn : ¬ (loc.sep = 0 ∧ loc.point = 46)) (b : Bool) (t : List Nat) :
    ∃ z, (handleSeparators loc b t).stored = some (delocalize loc t) ∧ (handleSeparators loc b t).view = delocalize loc t ++ z ∧ (z = [] ∨ ∃ z', z = 0 :: z') ∧
      (delocalize loc t).length + (handleSeparators loc b t).seps = t.length := by
  have hstr : (if loc.point ≠ 46 then t.map (fun c => if c = loc.point then 46 else c) else t) = t.map fun c => if c = loc.point then 46 else c := by
    split
    · rfl
    · rename_i h
      have h : loc.point = 46 := Classical.not_not.1 h
      have : (fun c : Nat => if c = loc.point then 46 else c) = id := by
        funext c
        split
        · rw [‹c = loc.point›, h]; rfl
        · rfl
      rw [this, List.map_id]
  have hmem : loc.sep ≠ 0 → (loc.sep ∈ (t.map fun c => if c = loc.point then 46 else c) ↔ loc.sep ∈ t) := by
    intro h0
    rw [List.mem_map]
    constructor
    · rintro ⟨c, hc, hce⟩
      split at hce
      · exact absurd hce.symm (hl.2 h0).2.2.2
      · rw [← hce]; exact hc
    · intro h
      exact ⟨loc.sep, h, if_neg (hl.2 h0).2.2.1⟩
  unfold handleSeparators
  rw [if_neg hn]
  dsimp only
  rw [hstr]
  by_cases hs : loc.sep = 0 ∨ loc.sep ∉ (t.map fun c => if c = loc.point then 46 else c)
  · rw [if_pos hs]
    have hs' : loc.sep = 0 ∨ loc.sep ∉ t := by
      by_cases h0 : loc.sep = 0
      · exact Or.inl h0
      · exact Or.inr (fun h => (hs.resolve_left h0) ((hmem h0).2 h))
    refine ⟨[], by rw [delocalize_nosep t hs'], by rw [delocalize_nosep t hs', List.append_nil], Or.inl rfl, ?_⟩
    rw [delocalize_nosep t hs', List.length_map]; rfl
  · rw [if_neg hs]
    have h0 : loc.sep ≠ 0 := fun h => hs (Or.inl h)
    rw [delocalize_comm hl t h0]
    refine ⟨_, rfl, rfl, Or.inr ⟨_, rfl⟩, ?_⟩
    have : (delocalize loc t).length ≤ t.length := by
      rw [delocalize_def, List.length_map]
      exact List.length_filter_le _ _
    rw [List.length_map]
    show (delocalize loc t).length + (t.length - (delocalize loc t).length) = t.length
    omega

/-- A number, and what is not in numbers. -/
theorem longest_stop {f s : Bool} {p z : List Nat} (hp : DecText f s p) (hz : z = [] ∨ ∃ z', z = 0 :: z') : Longest (DecText f s) (p ++ z) p := by
  refine ⟨hp, ⟨z, rfl⟩, ?_⟩
  intro q hq hqp
  rcases Nat.lt_or_ge p.length q.length with h | h
  · exfalso
    rcases hz with rfl | ⟨z', rfl⟩
    · have := hqp.length_le; simp at this; omega
    · obtain ⟨v, hv⟩ := hqp
      have : p ++ [0] <+: q := by
        apply List.prefix_of_prefix_length_le (l₃ := p ++ 0 :: z')
        · exact ⟨z', by simp⟩
        · exact ⟨v, hv⟩
        · simp; omega
      have := dec_ge hq 0 (this.subset (by simp))
      omega
  · exact h

/-- The reader on a number in a locale. -/
theorem eval_loc {V : Type} {cv : FloatConv V} {round : List Nat → Rounded V} (hcv : ConvOk cv round) (e : Enc) (k : Src) (seg : Bool) {loc : FloatLoc} (hl : LocOk loc)
    (hn : ¬ (loc.sep = 0 ∧ loc.point = 46)) {o : FloatOpts} (ho : (o.hex = false ∧ (o.fixed = true ∨ o.sci = true)) ∨ o = ⟨true, true, true⟩)
    {t rest : List Nat} {c : Nat} {cs : List Nat} (ht : t = c :: cs) (hc : IsDigit 10 c) (hL : Longest (LocDecText loc o.fixed o.sci) (t ++ rest) t)
    (hx : o.hex = true → ∀ x r, t ++ rest = 48 :: x :: r → x ≠ 120 ∧ x ≠ 88) :
    ∃ body, floatBody k loc o (t ++ rest) = .ok body ∧
      floatDispatch cv e o body.kind (handleSeparators loc (!k.contiguous && seg) body.text) body.payload = roundOutcome (round (delocalize loc t)) (delocalize loc t).length ∧
      (delocalize loc t).length + (handleSeparators loc (!k.contiguous && seg) body.text).seps = t.length := by
  have hd46 : ¬ LocDigit loc 10 loc.point := by
    rintro (h | ⟨h1, h2⟩)
    · exact hl.1.1 h
    · exact (hl.2 h1).2.2.1 h2.symm
  have hlet : ∀ l ∈ [101, 69], ¬ LocDigit loc 10 l ∧ l ≠ loc.point := by
    intro l hle
    have hd : ¬ IsDigit 10 l := by simp at hle; rcases hle with rfl | rfl <;> decide
    have hm : l ∈ [101, 69, 43, 45] := by simp at hle ⊢; omega
    refine ⟨?_, by rintro rfl; exact hl.1.2 hm⟩
    rintro (h | ⟨h1, h2⟩)
    · exact hd h
    · exact (hl.2 h1).2.1 (h2 ▸ hm)
  have ho' : o.fixed = true ∨ o.sci = true := by
    rcases ho with h | rfl
    · exact h.2
    · exact Or.inl rfl
  have hs : t ++ rest = c :: (cs ++ rest) := by rw [ht]; rfl
  obtain ⟨kd, hr, hkd⟩ : ∃ kd, readRegularFloat loc o (t ++ rest) = .ok (kd, t) ∧ (kd = .fixed ∨ kd = .scientific) := by
    rw [hs]
    rcases regular_loc loc hd46 hlet o ho' (cs ++ rest) (Or.inl hc) with ⟨kd, t', h1, h2, h3⟩ | ⟨h1, h2⟩
    · rw [← hs] at h3
      have := longest_unique h3 hL
      subst this
      exact ⟨kd, h1, h2⟩
    · exact absurd ⟨rest, by rw [← hs]⟩ (h2 t hL.1)
  have hbody : floatBody k loc o (t ++ rest) = .ok { kind := kd, text := t } := by
    unfold floatBody
    have hi : readInf k (t ++ rest) = none := by rw [hs]; exact readInf_digit (digit16 hc)
    have hna : readNan k (t ++ rest) = none := by rw [hs]; exact readNan_digit (digit16 hc)
    rw [hi, hna]
    dsimp only
    rcases ho with ⟨h1, h2⟩ | rfl
    · rw [if_neg (by simp [h1]), if_pos (by rcases h2 with h | h <;> simp [h1, h]), hr]
      rfl
    · rw [if_neg (by decide), if_neg (by decide)]
      have hm : hexPrefix k (t ++ rest) = none := by
        cases hm : hexPrefix k (t ++ rest) with
        | none => rfl
        | some r =>
          rw [hs] at hm
          obtain ⟨rfl, x, hx', hcs⟩ := hexPrefix_some hc hm
          have := hx rfl x r (by rw [hs, hcs])
          omega
      rw [hm]
      dsimp only
      unfold floatRegular
      rw [if_neg, hr]
      · rfl
      · simp only [Bool.and_eq_true, beq_iff_eq]
        rintro ⟨⟨_, h1⟩, h2⟩
        exact hn ⟨h1, h2⟩
  refine ⟨_, hbody, ?_⟩
  dsimp only
  obtain ⟨z, h1, h2, h3, h4⟩ := separators_loc hl hn (!k.contiguous && seg) t
  refine ⟨?_, h4⟩
  obtain ⟨hdec, ds, hds⟩ := delocalize_dec hl hL.1 ht hc
  have hview : (handleSeparators loc (!k.contiguous && seg) t).view = c :: (ds ++ z) := by rw [h2, hds]; rfl
  have hk : DecKind kd := Or.inr hkd
  have hkh : kd ≠ .hexWithout := by rcases hkd with rfl | rfl <;> decide
  refine dispatch_view hcv hk hview hc ?_ ?_
  · have := longest_stop hdec h3
    rw [← h2, hview] at this
    exact this
  · have hin : strtodInput e (handleSeparators loc (!k.contiguous && seg) t) = some (c :: ds) := by
      unfold strtodInput; rw [h1, hds]
    have := strtodImpl_input hcv (kind := kd) (p := c :: ds) hin hc (by simp) (by
      rw [if_neg hkh, ← hds]
      exact longest_self (Or.inl (dec_mono hdec)))
    rw [if_neg hkh, ← hds] at this
    exact this

end Scn
