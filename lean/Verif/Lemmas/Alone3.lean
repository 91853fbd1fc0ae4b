import Verif.Lemmas.Alone2
/-
Fields: what a field has consumed is read the same on its own.
-/
namespace Scn
open Spec
variable {V : Type}

theorem fit_part : ∀ (n : Nat) (p q : List Nat), ∃ x, fit n (p ++ q) = fit n p ++ x ∧ x <+: q ∧ (x = [] ∨ fit n p = p)
  | n, [], q => ⟨fit n q, by simp [fit], fit_prefix n q, Or.inr (by simp [fit])⟩
  | n, c :: p, q => by
    rw [List.cons_append]
    unfold fit
    split
    · obtain ⟨x, h1, h2, h3⟩ := fit_part (n - columns c) p q
      refine ⟨x, by rw [h1, List.cons_append], h2, ?_⟩
      rcases h3 with h3 | h3
      · exact Or.inl h3
      · exact Or.inr (by rw [h3])
    · exact ⟨[], by simp, List.nil_prefix, Or.inl rfl⟩

/-- What a field may look at, and what of it is in the part. -/
theorem view_join_append (F : PaddedField) (u : Nat) (p q : List Nat) :
    ∃ x, F.view u (p ++ q) = F.view u p ++ x ∧ x <+: q ∧ (x = [] ∨ F.view u p = p) := by
  unfold PaddedField.view
  split
  · exact ⟨q, rfl, List.prefix_refl _, Or.inr rfl⟩
  · exact fit_part _ _ _

theorem takeWhile_alone {f : Nat → Bool} {v x : List Nat} (h : ((v ++ x).takeWhile f).length ≤ v.length) :
    (v ++ x).takeWhile f = v.takeWhile f := by
  induction v with
  | nil => simpa using h
  | cons c v ih =>
    rw [List.cons_append] at h ⊢
    cases hc : f c with
    | true =>
      rw [List.takeWhile_cons_of_pos hc] at h ⊢
      rw [List.takeWhile_cons_of_pos hc, ih (by simpa using h)]
    | false =>
      rw [List.takeWhile_cons_of_neg (by simp [hc]), List.takeWhile_cons_of_neg (by simp [hc])]

theorem view_takeWhile_alone (F : PaddedField) (u : Nat) (f : Nat → Bool) {p q : List Nat}
    (h : ((F.view u (p ++ q)).takeWhile f).length ≤ p.length) : (F.view u (p ++ q)).takeWhile f = (F.view u p).takeWhile f := by
  obtain ⟨x, h1, _, h3⟩ := view_join_append F u p q
  rw [h1] at h ⊢
  rcases h3 with h3 | h3
  · rw [h3, List.append_nil]
  · exact takeWhile_alone (by rw [h3] at h ⊢; exact h)

theorem before_alone (F : PaddedField) (b : Bool) {p q : List Nat} (h : (F.before b (p ++ q)).length ≤ p.length) :
    F.before b (p ++ q) = F.before b p := by
  unfold PaddedField.before at h ⊢
  cases hs : F.side with
  | before => rw [hs] at h; exact view_takeWhile_alone F 0 _ h
  | both => rw [hs] at h; exact view_takeWhile_alone F 0 _ h
  | after => rfl
  | unspecified =>
    rw [hs] at h
    cases b with
    | true => exact view_takeWhile_alone F 0 _ h
    | false => rfl

theorem after_alone (F : PaddedField) (b : Bool) (u : Nat) {p q : List Nat} (h : (F.after b u (p ++ q)).length ≤ p.length) :
    F.after b u (p ++ q) = F.after b u p := by
  unfold PaddedField.after at h ⊢
  cases hs : F.side with
  | before => rfl
  | both => rw [hs] at h; exact view_takeWhile_alone F u _ h
  | after => rw [hs] at h; exact view_takeWhile_alone F u _ h
  | unspecified =>
    rw [hs] at h
    dsimp only at h ⊢
    by_cases hc : ((! b) = true ∧ F.unfinished u)
    · rw [if_pos hc] at h ⊢
      rw [if_pos hc]
      exact view_takeWhile_alone F u _ h
    · rw [if_neg hc, if_neg hc]

theorem before_is_prefix (F : PaddedField) (b : Bool) (p : List Nat) : F.before b p <+: F.view 0 p := by
  unfold PaddedField.before
  split
  · exact List.takeWhile_prefix _
  · exact List.takeWhile_prefix _
  · exact List.nil_prefix
  · split
    · exact List.takeWhile_prefix _
    · exact List.nil_prefix

/-- A padded field on a part of a text that ends after the field. -/
theorem padded_alone {F : PaddedField} {b : Bool} {rd : List Nat → Res (V × List Nat)} {p q r : List Nat} {v : V}
    (hsuf : ∀ c v r, rd c = .ok (v, r) → r <:+ c)
    (ha : ∀ u x c, u ++ x <:+: p ++ q → c <:+ u → rd (u ++ x) = .ok (v, c ++ x) → rd u = .ok (v, c))
    (hm : b = true → ∀ c u r, c :: u <:+: p ++ q → isSpace c = false → rd (c :: u) = .ok (v, r) → r.length < (c :: u).length)
    (h : F.read b rd (p ++ q) = .ok (v, r ++ q)) : F.read b rd p = .ok (v, r) := by
  have hlen : ∀ {s : List Nat}, r ++ q = s → q.length ≤ s.length := by rintro _ rfl; simp
  unfold PaddedField.read at h
  dsimp only at h
  by_cases h1 : F.side = .unspecified ∧ b = true ∧ F.before b (p ++ q) = F.view 0 (p ++ q)
  · rw [if_pos h1] at h; cases h
  rw [if_neg h1] at h
  by_cases h2 : F.precision ≠ 0 ∧ F.precision ≤ cols (F.before b (p ++ q))
  · rw [if_pos h2] at h; cases h
  rw [if_neg h2] at h
  cases hx : rd (F.view (cols (F.before b (p ++ q))) ((p ++ q).drop (F.before b (p ++ q)).length)) with
  | ub => rw [hx] at h; cases h
  | err y => rw [hx] at h; cases h
  | ok y =>
    rw [hx, Res.bind_ok] at h
    split at h
    · cases h
    rename_i h3
    simp only [Res.ok.injEq, Prod.mk.injEq] at h
    obtain ⟨hv, hrest⟩ := h
    obtain ⟨y1, y2⟩ := y
    dsimp only at hv hrest h3
    subst hv
    -- what is skipped before is in the part
    have hplen : (F.before b (p ++ q)).length ≤ p.length := by
      have h4 := congrArg List.length hrest
      simp only [List.length_drop, List.length_append] at h4
      have h5 := ((before_is_prefix F b (p ++ q)).trans (view_prefix F 0 _)).length_le
      rw [List.length_append] at h5
      omega
    have hpre := before_alone F b hplen
    rw [hpre] at hx h3 hrest h2 h1 hplen
    generalize hP : F.before b p = pre at hx h3 hrest h2 h1 hplen hpre
    have hdrop : (p ++ q).drop pre.length = p.drop pre.length ++ q := List.drop_append_of_le_length hplen
    rw [hdrop] at hx h3 hrest
    obtain ⟨x, hv1, hv2, hv3⟩ := view_join_append F (cols pre) (p.drop pre.length) q
    have hysuf := hsuf _ _ _ hx
    have hvlen : (F.view (cols pre) (p.drop pre.length ++ q)).length - y2.length ≤ (p.drop pre.length).length := by
      have h4 := congrArg List.length hrest
      simp only [List.length_drop, List.length_append, List.length_take] at h4
      have h5 := (view_prefix F (cols pre) (p.drop pre.length ++ q)).length_le
      rw [List.length_append, List.length_drop] at h5
      rw [List.length_drop]
      omega
    -- what the reader leaves includes what is beyond the part
    obtain ⟨c, hc1, hc2⟩ : ∃ c, y2 = c ++ x ∧ c <:+ F.view (cols pre) (p.drop pre.length) := by
      rw [hv1] at hysuf hvlen
      have hle : x.length ≤ y2.length := by
        rcases hv3 with h | h
        · simp [h]
        · rw [h] at hvlen
          rw [List.length_append] at hvlen
          have := hysuf.length_le
          rw [h, List.length_append] at this
          omega
      have hxs : x <:+ y2 := List.suffix_of_suffix_length_le (List.suffix_append _ _) hysuf hle
      obtain ⟨c, rfl⟩ := hxs
      refine ⟨c, rfl, ?_⟩
      obtain ⟨d, hd⟩ := hysuf
      rw [← List.append_assoc] at hd
      exact ⟨d, List.append_cancel_right hd⟩
    subst hc1
    have hinf : F.view (cols pre) (p.drop pre.length ++ q) <:+: p ++ q := by
      refine (view_prefix F _ _).isInfix.trans ?_
      rw [← hdrop]; exact (List.drop_suffix _ _).isInfix
    rw [hv1] at hx hinf
    have hrd := ha _ _ _ hinf hc2 hx
    have htake : (F.view (cols pre) (p.drop pre.length ++ q)).take ((F.view (cols pre) (p.drop pre.length ++ q)).length - (c ++ x).length) =
        (F.view (cols pre) (p.drop pre.length)).take ((F.view (cols pre) (p.drop pre.length)).length - c.length) := by
      rw [hv1, List.length_append, List.length_append]
      rw [show (F.view (cols pre) (p.drop pre.length)).length + x.length - (c.length + x.length) =
        (F.view (cols pre) (p.drop pre.length)).length - c.length by omega]
      exact List.take_append_of_le_length (by omega)
    rw [htake] at h3 hrest
    generalize hV : (F.view (cols pre) (p.drop pre.length)).take ((F.view (cols pre) (p.drop pre.length)).length - c.length) = val at h3 hrest
    have hvalp : val <+: p.drop pre.length := by
      rw [← hV]
      exact (List.take_prefix _ _).trans (view_prefix F _ _)
    have hdrop2 : (p.drop pre.length ++ q).drop val.length = (p.drop pre.length).drop val.length ++ q :=
      List.drop_append_of_le_length hvalp.length_le
    rw [hdrop2] at h3 hrest
    have hpost : (F.after b (cols pre + cols val) ((p.drop pre.length).drop val.length ++ q)).length ≤ ((p.drop pre.length).drop val.length).length := by
      have h4 := congrArg List.length hrest
      have h5 : (F.after b (cols pre + cols val) ((p.drop pre.length).drop val.length ++ q)).length ≤
          ((p.drop pre.length).drop val.length ++ q).length := by
        have hw : ∀ f : Nat → Bool, ((F.view (cols pre + cols val) ((p.drop pre.length).drop val.length ++ q)).takeWhile f).length ≤
          ((p.drop pre.length).drop val.length ++ q).length := fun f => ((List.takeWhile_prefix _).trans (view_prefix F _ _)).length_le
        unfold PaddedField.after
        split
        · exact hw _
        · exact hw _
        · simp
        · split
          · exact hw _
          · simp
      rw [List.length_append] at h5
      rw [List.length_drop, List.length_append, List.length_append] at h4
      omega
    have hpa := after_alone F b _ hpost
    rw [hpa] at h3 hrest hpost
    -- the field on the part
    unfold PaddedField.read
    dsimp only
    rw [hP]
    rw [if_neg, if_neg h2, hrd, Res.bind_ok]
    · dsimp only
      rw [hV, if_neg h3]
      rw [List.drop_append_of_le_length hpost] at hrest
      rw [List.append_cancel_right hrest]
    · -- the part is not all whitespace
      rintro ⟨hside, hb, hall⟩
      subst hb
      obtain ⟨x0, hx1, hx2, hx3⟩ := view_join_append F 0 p q
      have hne : x0 ≠ [] := by
        rintro rfl
        rw [List.append_nil] at hx1
        exact h1 ⟨hside, rfl, by rw [hx1]; exact hall⟩
      have hp0 : F.view 0 p = p := hx3.resolve_left hne
      have hpp : pre = p := hall.trans hp0
      have hwhole : pre = (F.view 0 (p ++ q)).takeWhile isSpace := by
        rw [← hpre]
        unfold PaddedField.before
        rw [hside]
        rfl
      have hnilp : p.drop pre.length = [] := by rw [hpp]; exact List.drop_length
      -- the value would begin beyond the part
      rw [hnilp] at hvlen hv1 hx hinf
      simp only [List.nil_append, List.length_nil, Nat.le_zero] at hvlen hv1
      have hvnil : F.view (cols pre) [] = [] := by unfold PaddedField.view; split <;> simp [fit]
      rw [hvnil, List.nil_append] at hx hinf hv1
      rw [hv1] at hvlen
      cases x with
      | nil =>
        -- then the precision is exhausted
        have hq : F.view (cols pre) q = [] := hv1
        unfold PaddedField.view at hq
        by_cases hp : F.precision = 0
        · rw [if_pos hp] at hq
          have hx2' := hx2
          rw [hq] at hx2'
          exact hne (List.prefix_nil.1 hx2')
        · rw [if_neg hp] at hq
          cases q with
          | nil => exact hne (List.prefix_nil.1 hx2)
          | cons a q =>
            unfold fit at hq
            split at hq
            · cases hq
            · rename_i hcol
              apply hne
              have hfx : fit F.precision (p ++ a :: q) = p ++ x0 := by
                have := hx1
                unfold PaddedField.view at this
                rw [if_neg hp, if_neg hp] at this
                have h0 : fit F.precision p = p := by
                  have := hp0
                  unfold PaddedField.view at this
                  rw [if_neg hp] at this
                  exact this
                rw [Nat.sub_zero, h0] at this
                exact this
              have hcp := fit_cols F.precision (p ++ a :: q)
              rw [hfx] at hcp
              cases x0 with
              | nil => rfl
              | cons z zs =>
                exfalso
                obtain ⟨w, hw⟩ := hx2
                simp only [List.cons_append, List.cons.injEq] at hw
                rw [hw.1] at hcp
                have : cols (p ++ a :: zs) = cols p + (columns a + cols zs) := by
                  simp [cols]
                rw [this] at hcp
                rw [hpp] at hcol
                omega
      | cons z zs =>
        have hz : isSpace z = false := by
          have hfirst : (F.view 0 (p ++ q)).takeWhile isSpace = p := hwhole.symm.trans hpp
          rw [hx1, hp0] at hfirst
          have hzx : ∃ w, x0 = z :: w := by
            obtain ⟨w1, hw1⟩ := hx2
            obtain ⟨w2, hw2⟩ := hv2
            cases x0 with
            | nil => exact absurd rfl hne
            | cons k ks =>
              rw [← hw2] at hw1
              simp only [List.cons_append, List.cons.injEq] at hw1
              exact ⟨ks, by rw [hw1.1]⟩
          obtain ⟨w, rfl⟩ := hzx
          cases hc : isSpace z with
          | false => rfl
          | true =>
            exfalso
            have hall : ∀ y ∈ p, isSpace y = true := by
              intro y hy
              rw [← hfirst] at hy
              exact mem_takeWhile_true hy
            have h6 : (p ++ z :: w).takeWhile isSpace = p ++ (z :: w).takeWhile isSpace := List.takeWhile_append_of_pos hall
            rw [h6, List.takeWhile_cons_of_pos hc] at hfirst
            simp at hfirst
        have := hm rfl z zs _ hinf hz hx
        simp only [List.length_cons, List.length_append] at this hvlen
        omega

/-- Such a reader with a padded field around it. -/
theorem argRead_alone {e : Enc} {sp : Specs} {F : PaddedField} (hF : Describes e sp F) {rd : Reader V} (hk : Keeps e rd.read)
    (ha : Alone e rd.read) (hm : rd.skipWs = true → Moves e rd.read) {p q b : List Nat} (hs : ∀ c ∈ p ++ q, IsScalar c) (hb : b <:+ p) {v : V}
    (hr : argRead e sp rd (fun _ => .contiguous) (encodes e (p ++ q)) = .ok (v, encodes e (b ++ q))) :
    argRead e sp rd (fun _ => .contiguous) (encodes e p) = .ok (v, encodes e b) := by
  classical
  have hl : (if F.precision = 0 then Layout.contiguous else .segmented 0) = .contiguous ∨
      (if F.precision = 0 then Layout.contiguous else .segmented 0) = .segmented 0 := by split <;> simp
  generalize hL : (if F.precision = 0 then Layout.contiguous else .segmented 0) = l at hl
  have each : ∀ c, ∃ y : Res (V × List Nat), ((∀ x ∈ c, IsScalar x) → rd.read l (encodes e c) = y.map fun r => (r.1, encodes e r.2)) ∧
      ∀ v r, y = .ok (v, r) → r <:+ c ∧ ∀ x ∈ c, IsScalar x := by
    intro c
    by_cases hc : ∀ x ∈ c, IsScalar x
    · cases hx : rd.read l (encodes e c) with
      | ub => exact ⟨.ub, fun _ => rfl, fun _ _ h => by cases h⟩
      | err x => exact ⟨.err x, fun _ => rfl, fun _ _ h => by cases h⟩
      | ok x =>
        obtain ⟨t, ht, he⟩ := hk l c hc x.1 x.2 hx
        exact ⟨.ok (x.1, t), fun _ => by simp only [Res.map]; rw [← he], fun _ _ h => by cases h; exact ⟨ht, hc⟩⟩
    · exact ⟨.ub, fun h => absurd h hc, fun _ _ h => by cases h⟩
  obtain ⟨rds, h1, h2⟩ : ∃ rds : List Nat → Res (V × List Nat), (∀ c, (∀ x ∈ c, IsScalar x) →
      rd.read l (encodes e c) = (rds c).map fun r => (r.1, encodes e r.2)) ∧ ∀ c v r, rds c = .ok (v, r) → r <:+ c ∧ ∀ x ∈ c, IsScalar x :=
    ⟨fun c => (each c).choose, fun c => (each c).choose_spec.1, fun c => (each c).choose_spec.2⟩
  have at_ : ∀ cps, (∀ c ∈ cps, IsScalar c) → argRead e sp rd (fun _ => .contiguous) (encodes e cps) =
      (F.read rd.skipWs rds cps).map fun r => (r.1, encodes e r.2) := by
    intro cps hc
    have hd : cps.drop (F.before rd.skipWs cps).length <:+ cps := List.drop_suffix _ _
    refine argRead_at e sp F hF rd _ cps hc (fun t _ => good_layout (Or.inl rfl) t) rds _ rfl ?_ (fun v r h => (h2 _ v r h).1)
    rw [hL]
    exact h1 _ fun x hx => hc x (hd.subset ((view_prefix F _ _).subset hx))
  have hsp : ∀ c ∈ p, IsScalar c := fun c hc => hs c (List.mem_append_left _ hc)
  rw [at_ _ hs] at hr
  rw [at_ _ hsp]
  obtain ⟨⟨z1, z2⟩, hz, hz2⟩ := map_ok hr
  simp only [Prod.mk.injEq] at hz2
  obtain ⟨rfl, hz2⟩ := hz2
  have hzs := padded_rest hz
  have hsb : ∀ c ∈ b ++ q, IsScalar c := fun c hc => hs c (by
    rcases List.mem_append.1 hc with hc | hc
    · exact List.mem_append_left _ (hb.subset hc)
    · exact List.mem_append_right _ hc)
  have hzb := encodes_inj e (fun c hc => hs c (hzs.subset hc)) hsb hz2
  subst hzb
  have := padded_alone (rd := rds) (fun c v r h => (h2 c v r h).1) ?_ ?_ hz
  · rw [this]; rfl
  · -- the reader on a part
    intro u x c hux hcu h
    have hsu : ∀ y ∈ u ++ x, IsScalar y := fun y hy => hs y (hux.subset hy)
    have h3 := h1 _ hsu
    rw [h] at h3
    have h4 := ha l hl u c x _ hsu hcu h3
    rw [h1 u fun y hy => hsu y (List.mem_append_left _ hy)] at h4
    obtain ⟨⟨w1, w2⟩, hw, hw2⟩ := map_ok h4
    simp only [Prod.mk.injEq] at hw2
    obtain ⟨rfl, hw2⟩ := hw2
    rw [hw, encodes_inj e (fun y hy => hsu y (List.mem_append_left _ ((h2 _ _ _ hw).1.subset hy)))
      (fun y hy => hsu y (List.mem_append_left _ (hcu.subset hy))) hw2]
  · -- the reader moves
    intro hsk c u r hcu hc h
    have hsu : ∀ y ∈ c :: u, IsScalar y := fun y hy => hs y (hcu.subset hy)
    have h3 := h1 _ hsu
    rw [h] at h3
    have h4 := hm hsk l hl c u _ _ hsu hc h3
    have h5 := (h2 _ _ _ h).1
    rcases Nat.lt_or_ge r.length (c :: u).length with h6 | h6
    · exact h6
    · rw [h5.eq_of_length_le h6] at h4
      exact absurd h4 (Nat.lt_irrefl _)

/-- A field without a specification. -/
theorem defaultRead_alone {e : Enc} {rd : Reader V} (hk : Keeps e rd.read) (ha : Alone e rd.read) (hm : rd.skipWs = true → Moves e rd.read)
    (hn : rd.skipWs = false → ∀ l v r, rd.read l [] ≠ .ok (v, r)) {p q b : List Nat} (hs : ∀ c ∈ p ++ q, IsScalar c) (hb : b <:+ p) {v : V}
    (hr : defaultRead e rd (fun _ => .contiguous) (encodes e (p ++ q)) = .ok (v, encodes e (b ++ q))) :
    defaultRead e rd (fun _ => .contiguous) (encodes e p) = .ok (v, encodes e b) := by
  have hsp : ∀ c ∈ p, IsScalar c := fun c hc => hs c (List.mem_append_left _ hc)
  have hsb : ∀ c ∈ b ++ q, IsScalar c := fun c hc => hs c (by
    rcases List.mem_append.1 hc with hc | hc
    · exact List.mem_append_left _ (hb.subset hc)
    · exact List.mem_append_right _ hc)
  have hgl : ∀ cps, GoodLayout e .contiguous cps := good_layout (Or.inl rfl)
  unfold defaultRead at hr ⊢
  by_cases h0 : encodes e (p ++ q) = []
  · rw [if_pos h0] at hr; cases hr
  rw [if_neg h0] at hr
  cases hw : rd.skipWs with
  | true =>
    rw [hw] at hr
    simp only [if_true] at hr ⊢
    rw [skipSpace_encodes e _ _ hs (hgl _)] at hr
    by_cases hsw : (p ++ q).takeWhile isSpace = p ++ q
    · rw [if_pos ⟨rfl, hsw⟩] at hr; cases hr
    rw [if_neg (fun h => hsw h.2), Res.bind_ok] at hr
    have hd : (p ++ q).dropWhile isSpace <:+ p ++ q := List.dropWhile_suffix _
    -- the whitespace ends within the part
    have hlen : q.length < ((p ++ q).dropWhile isSpace).length := by
      have hbt := between_length (hk _ _ (fun c hc => hs c (hd.subset hc)) _ _ hr)
      cases hdw : (p ++ q).dropWhile isSpace with
      | nil =>
        exfalso
        apply hsw
        have := List.takeWhile_append_dropWhile (p := isSpace) (l := p ++ q)
        rw [hdw, List.append_nil] at this
        exact this
      | cons c cs =>
        have hc : isSpace c = false := by
          have := List.head_dropWhile_not isSpace (l := p ++ q) (by rw [hdw]; simp)
          simpa [hdw] using this
        rw [hdw] at hr hd
        have hmv := hm hw _ (Or.inl rfl) c cs _ _ (fun x hx => hs x (hd.subset hx)) hc hr
        rcases Nat.lt_or_ge q.length (c :: cs).length with h | h
        · exact h
        · exfalso
          have hsq : c :: cs <:+ q := List.suffix_of_suffix_length_le hd (List.suffix_append _ _) h
          obtain ⟨w, rfl⟩ := hsq
          rw [encodes_append e b, encodes_append e w, List.length_append, List.length_append] at hmv
          omega
    obtain ⟨p', hp', hp2⟩ : ∃ p', (p ++ q).dropWhile isSpace = p' ++ q ∧ p' ≠ [] := by
      have : q <:+ (p ++ q).dropWhile isSpace := List.suffix_of_suffix_length_le (List.suffix_append _ _) hd (Nat.le_of_lt hlen)
      obtain ⟨p', hp'⟩ := this
      refine ⟨p', hp'.symm, ?_⟩
      rintro rfl
      rw [← hp'] at hlen
      simp at hlen
    have hcut := dropWhile_cut hp'
    have hp's : p' <:+ p := by
      rw [← hcut.1]; exact List.dropWhile_suffix _
    have hpn : ¬ encodes e p = [] := by
      intro hnil
      have : p = [] := encodes_inj e hsp (by simp) (by rw [hnil, encodes_nil])
      rw [this] at hp's
      exact hp2 (List.suffix_nil.1 hp's)
    have hall : ¬ (false = false ∧ p.takeWhile isSpace = p) := by
      rintro ⟨_, hall⟩
      have := List.takeWhile_append_dropWhile (p := isSpace) (l := p)
      rw [hall, hcut.1] at this
      exact hp2 (List.append_right_eq_self.1 this)
    rw [if_neg hpn, skipSpace_encodes e _ _ hsp (hgl _), hcut.1, if_neg hall, Res.bind_ok]
    · rw [hp'] at hr hd
      have hsp' : ∀ c ∈ p' ++ q, IsScalar c := fun c hc => hs c (hd.subset hc)
      have hbp : b <:+ p' := by
        obtain ⟨t, ht, he⟩ := hk _ _ hsp' _ _ hr
        have := encodes_inj e hsb (fun c hc => hsp' c (ht.subset hc)) he
        rw [← this] at ht
        obtain ⟨w, hw⟩ := ht
        rw [← List.append_assoc] at hw
        exact ⟨w, List.append_cancel_right hw⟩
      exact ha _ (Or.inl rfl) p' b q v hsp' hbp hr
  | false =>
    rw [hw] at hr
    simp only [Bool.false_eq_true, if_false] at hr ⊢
    have := ha _ (Or.inl rfl) p b q v hs hb hr
    split
    · rename_i hnil
      rw [hnil] at this
      exact absurd this (hn hw _ _ _)
    · exact this

end Scn
