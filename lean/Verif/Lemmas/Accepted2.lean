import Verif.Lemmas.Pieces
/-
A scan with a date and time format that passed the check: the reader's side and the checker's side.
-/
namespace Scn
open Spec
variable {T : Type}

/-! ### The first error stays -/

theorem keepsErr_closed_tmOn (cfg : ChronoCfg) (gmtoff : Bool) (get : T → Tm) (upd : (Tm → Tm) → T → T) (e : Err) :
    Closed cfg (tmSetterOn gmtoff get upd) (fun r => r.err = some e) :=
  have k := keepsErr_tmOn gmtoff get upd
  { err := fun _ _ h => setError_keeps h
    pos := fun _ _ h _ => h
    facet := fun _ _ _ _ h _ => h
    localized := fun _ h => h
    amPm := fun r b h => mark_keeps (r := { r with st := { r.st with isPm := b } }) h .amPm
    tzName := fun _ _ _ _ h _ => setError_keeps h
    scanned := fun _ _ _ _ h _ => h
    subsec := fun _ _ h => setError_keeps h
    sec := fun r v h => k.sec r v e h
    min := fun r v h => k.min r v e h
    hour24 := fun r v h => k.hour24 r v e h
    hour12 := fun r v h => k.hour12 r v e h
    mday := fun r v h => k.mday r v e h
    mon := fun r v h => k.mon r v e h
    fullYear := fun r v h => k.fullYear r v e h
    century := fun r v h => k.century r v e h
    shortYear := fun r v h => k.shortYear r v e h
    wday := fun r v h => k.wday r v e h
    yday := fun r v h => k.yday r v e h
    tzOffset := fun r v h => by
      dsimp only [tmSetterOn]
      split
      · exact h
      · exact setError_keeps h
    handleAmPm := fun r r' h _ _ hr => by obtain ⟨x, hx, rfl⟩ := Option.map_eq_some_iff.1 hr; exact h
    handleYear := fun r r' h _ hr => by obtain ⟨x, hx, rfl⟩ := Option.map_eq_some_iff.1 hr; exact h }

theorem keepsErr_closed_tmTz (cfg : ChronoCfg) (gmtoff : Bool) (e : Err) : Closed cfg (tmTzSetter gmtoff) (fun r => r.err = some e) :=
  have k := keepsErr_closed_tmOn cfg gmtoff (fun t : TmWithTz => t.tm) (fun f t => { t with tm := f t.tm }) e
  { k with
    tzName := fun r _ n _ h _ => mark_keeps (r := { r with tm := { r.tm with tzName := some n } }) h .tzname
    tzOffset := fun r v h => by
      dsimp only [tmTzSetter]
      split
      · exact k.tzOffset _ _ h
      · exact mark_keeps (r := { r with tm := { r.tm with tzOffset := some v } }) h .tzoff }

theorem keepsErr_closed_dt (cfg : ChronoCfg) (e : Err) : Closed cfg dtSetter (fun r => r.err = some e) where
  err _ _ h := setError_keeps h
  pos _ _ h _ := h
  facet _ _ _ _ h _ := h
  localized _ h := h
  amPm r b h := mark_keeps (r := { r with st := { r.st with isPm := b } }) h .amPm
  tzName r _ n _ h _ := mark_keeps (r := { r with tm := { r.tm with tzName := some n } }) h .tzname
  scanned _ _ _ _ h _ := h
  subsec r v h := by apply mark_keeps; exact h
  sec r v h := keepsErr_dt.sec r v e h
  min r v h := keepsErr_dt.min r v e h
  hour24 r v h := keepsErr_dt.hour24 r v e h
  hour12 r v h := keepsErr_dt.hour12 r v e h
  mday r v h := keepsErr_dt.mday r v e h
  mon r v h := keepsErr_dt.mon r v e h
  fullYear r v h := keepsErr_dt.fullYear r v e h
  century r v h := keepsErr_dt.century r v e h
  shortYear r v h := keepsErr_dt.shortYear r v e h
  wday r v h := keepsErr_dt.wday r v e h
  yday r v h := keepsErr_dt.yday r v e h
  tzOffset r v h := by apply mark_keeps; exact h
  handleAmPm r r' h _ _ hr := by rw [(marks_dt.handleAmPm r r' hr).1]; exact h
  handleYear r r' h _ hr := by rw [(marks_dt.handleYear r r' hr).1]; exact h

theorem marks_tmTz (gmtoff : Bool) : Marks (tmTzSetter gmtoff) (fun f => decide (f ≠ .tzoff) || !gmtoff) where
  sec r v h := marked_weaken rfl (setField_err h)
  min r v h := marked_weaken rfl (setField_err h)
  hour24 r v h := marked_weaken rfl (setField_err h)
  hour12 r v h := marked_weaken rfl (setField_err h)
  mday r v h := marked_weaken rfl (setField_err h)
  mon r v h := marked_weaken rfl (setField_err h)
  fullYear r v h := by
    dsimp only [tmTzSetter, tmSetterOn] at h ⊢
    split at h
    · exact absurd h (setError_err _ _)
    · rename_i hc; rw [if_neg hc]
      have := mark_err h
      exact marked_weaken rfl ⟨this.1, this.2⟩
  century r v h := by
    dsimp only [tmTzSetter, tmSetterOn] at h ⊢
    have := mark_err h
    exact marked_weaken rfl ⟨this.1, this.2⟩
  shortYear r v h := by
    dsimp only [tmTzSetter, tmSetterOn] at h ⊢
    split at h
    · exact absurd h (setError_err _ _)
    · rename_i hc; rw [if_neg hc]
      have := mark_err h
      exact marked_weaken rfl ⟨this.1, this.2⟩
  wday r v h := marked_weaken rfl (setField_err h)
  yday r v h := marked_weaken rfl (setField_err h)
  tzOffset r v h := by
    cases gmtoff with
    | false =>
      dsimp only [tmTzSetter, tmSetterOn] at h ⊢
      have := mark_err h
      exact marked_weaken rfl ⟨this.1, this.2⟩
    | true => exact ⟨h, rfl, rfl, rfl⟩
  tzName r v h := by
    dsimp only [tmTzSetter] at h ⊢
    have := mark_err h
    exact marked_weaken rfl ⟨this.1, this.2⟩
  amPm := rfl
  handleAmPm r r' h := by
    obtain ⟨a, _, heq⟩ := Option.map_eq_some_iff.1 h
    subst heq; exact ⟨rfl, rfl⟩
  handleYear r r' h := by
    obtain ⟨a, _, heq⟩ := Option.map_eq_some_iff.1 h
    subst heq; exact ⟨rfl, rfl⟩

/-! ### The reader -/

/-- What is known about a type's setters. -/
structure SetterOk (cfg : ChronoCfg) (set : TmSetter T) (sup marked : ChronoField → Bool) : Prop where
  quiet : Quiet set sup
  marks : Marks set marked
  pos : KeepsPos set
  err : ∀ e, Closed cfg set (fun r => r.err = some e)

theorem setterOk_tm (cfg : ChronoCfg) (gmtoff : Bool) : SetterOk cfg (tmSetter gmtoff) (TmKind.supports gmtoff .tm) notTzoff :=
  ⟨quiet_tmOn gmtoff _ _, marks_tm gmtoff, keepsPos_tmOn gmtoff _ _, keepsErr_closed_tmOn cfg gmtoff _ _⟩

theorem setterOk_tmTz (cfg : ChronoCfg) (gmtoff : Bool) :
    SetterOk cfg (tmTzSetter gmtoff) (TmKind.supports gmtoff .tmWithTz) (fun f => decide (f ≠ .tzoff) || !gmtoff) :=
  ⟨quiet_tmTz gmtoff, marks_tmTz gmtoff, keepsPos_tmTz gmtoff, keepsErr_closed_tmTz cfg gmtoff⟩

theorem setterOk_dt (cfg : ChronoCfg) (gmtoff : Bool) : SetterOk cfg dtSetter (TmKind.supports gmtoff .components) (fun _ => true) :=
  ⟨quiet_dt gmtoff, marks_dt, keepsPos_dt, keepsErr_closed_dt cfg⟩

/-- Where the reader may be after the conversions `done`: with an error, which is that of a wrong format only if literal
    text did not stand in the source, or with the fields marked and behind what the conversions take. -/
def SoFar (en : Enc) (marked : ChronoField → Bool) (cs : List ChronoCall) (src : List Nat) (done : List ChronoCall) (r : Rd T) : Prop :=
  (∃ e, r.err = some e ∧ (e = .invalidFormatString → Mismatch cs src)) ∨
    (r.err = none ∧ r.st.localized = false ∧ r.st.set = ((fieldsOf done).filter marked).reverse ∧
      ∃ w q, src = w ++ q ∧ r.pos = encodes en q ∧ Pieces done w q)

theorem fieldsOf_append (a b : List ChronoCall) : fieldsOf (a ++ b) = fieldsOf a ++ fieldsOf b := List.filterMap_append

/-- The conversions that are considered. -/
def Considered (en : Enc) (x : ChronoCall) : Prop :=
  (Readable x ∨ ∃ t, x = .text t ∧ ∀ y ∈ t, IsScalar y ∧ encode en y = [y]) ∧ oneField x ∧ x ≠ .tzName

theorem sofar_err {cfg : ChronoCfg} {set : TmSetter T} {sup marked : ChronoField → Bool} (hs : SetterOk cfg set sup marked) {cs done done' : List ChronoCall}
    {src : List Nat} {r r' : Rd T} {x : ChronoCall} (h : ∃ e, r.err = some e ∧ (e = .invalidFormatString → Mismatch cs src))
    (hr : r.call cfg set x = some r') : SoFar cfg.enc marked cs src (done ++ done') r' := by
  obtain ⟨e, he, hm⟩ := h
  exact Or.inl ⟨e, closed_call (hs.err e) he x hr, hm⟩

theorem sofar_simple {cfg : ChronoCfg} (hl : GoodLayouts cfg.enc cfg.lay) {set : TmSetter T} {sup marked : ChronoField → Bool} (hs : SetterOk cfg set sup marked)
    {cs done post : List ChronoCall} {src : List Nat} (hsrc : ∀ c ∈ src, IsScalar c) {x : ChronoCall} (hcs : cs = done ++ x :: post) (hx : Considered cfg.enc x)
    (hsup : ∀ f ∈ fieldsOf [x], sup f = true) (hnd : (fieldsOf (done ++ [x])).Nodup) {r r' : Rd T} (h : SoFar cfg.enc marked cs src done r)
    (hr : r.simple cfg set x = some r') : SoFar cfg.enc marked cs src (done ++ [x]) r' := by
  obtain ⟨hx, hone, hz⟩ := hx
  rcases h with ⟨e, he, hm⟩ | ⟨h1, h2, h3, w, q, h4, h5, h6⟩
  · exact Or.inl ⟨e, closed_simple (hs.err e) he x hr, hm⟩
  · have hq : ∀ c ∈ q, IsScalar c := fun c hc => hsrc c (by rw [h4]; simp [hc])
    cases he : r'.err with
    | none =>
      have hm := simple_marked cfg set hs.marks x hone h2 hr he
      obtain ⟨v, q', hv, hp, hpiece⟩ := simple_piece cfg hl set hs.pos hs.err hx hz h2 hq h5 hr he
      refine Or.inr ⟨he, by rw [hm.2.1]; exact h2, ?_, w ++ v, q', by rw [h4, hv, List.append_assoc], hp, pieces_append (hv ▸ h6) (pieces_one hpiece)⟩
      rw [hm.2.2.1, h3, fieldsOf_append, List.filter_append, List.reverse_append]
    | some e =>
      refine Or.inl ⟨e, he, fun heq => ?_⟩
      subst heq
      rcases hx with hx | ⟨t, rfl, ht⟩
      · exfalso
        have hf : ∀ f, fieldOf x = some f → fieldsOf [x] = [f] := fun f hf => by simp [fieldsOf, hf]
        refine simple_fine cfg set hs.quiet hx h2 (fun f hf' => hsup f (by rw [hf f hf']; simp)) (fun f hf' => ?_) (by rw [Rd.Fine, h1]; simp) hr he
        rw [fieldsOf_append, hf f hf'] at hnd
        rw [h3]
        intro hmem
        have : f ∈ fieldsOf done := by simp at hmem; exact hmem.1
        exact (List.nodup_append.1 hnd).2.2 f this f (by simp) rfl
      · cases hr
        obtain ⟨u, c, t', d, p, rfl, hp, hne⟩ := onText_mismatch t h1 he
        rw [h5] at hp
        obtain ⟨v, rfl, hv⟩ := encodes_peel u hq (fun x hx => ht x (by simp [hx])) hp
        cases v with
        | nil => cases hv
        | cons a v =>
          refine ⟨done, u, c, t', post, w, a, v, hcs, h4, h6, fun hca => hne ?_⟩
          subst hca
          rw [encodes_cons, (ht c (by simp)).2] at hv
          simp at hv
          exact hv.1.symm

theorem sofar_simples {cfg : ChronoCfg} (hl : GoodLayouts cfg.enc cfg.lay) {set : TmSetter T} {sup marked : ChronoField → Bool} (hs : SetterOk cfg set sup marked)
    {cs post : List ChronoCall} {src : List Nat} (hsrc : ∀ c ∈ src, IsScalar c) (xs : List ChronoCall) (hx : ∀ x ∈ xs, Considered cfg.enc x)
    (hsup : ∀ f ∈ fieldsOf xs, sup f = true) : ∀ (done : List ChronoCall) {r r' : Rd T}, cs = done ++ xs ++ post → (fieldsOf (done ++ xs)).Nodup →
    SoFar cfg.enc marked cs src done r → r.simples cfg set xs = some r' → SoFar cfg.enc marked cs src (done ++ xs) r' := by
  induction xs with
  | nil => intro done r r' _ _ h hr; cases hr; rw [List.append_nil]; exact h
  | cons x xs ih =>
    intro done r r' hcs hnd h hr
    rw [Rd.simples] at hr
    obtain ⟨a, ha, hr⟩ := bind_some_iff.1 hr
    have hap : done ++ x :: xs = done ++ [x] ++ xs := by simp
    rw [hap] at hnd hcs ⊢
    have h1 : fieldsOf (x :: xs) = fieldsOf [x] ++ fieldsOf xs := fieldsOf_append [x] xs
    rw [h1] at hsup
    refine ih (fun y hy => hx y (by simp [hy])) (fun f hf => hsup f (by simp [hf])) _ hcs hnd ?_ hr
    refine sofar_simple hl hs hsrc (post := xs ++ post) (by rw [hcs]; simp) (hx x (by simp)) (fun f hf => hsup f (by simp [hf])) ?_ h ha
    rw [fieldsOf_append] at hnd
    exact (List.nodup_append.1 hnd).1

theorem sofar_steps {cfg : ChronoCfg} (hl : GoodLayouts cfg.enc cfg.lay) {set : TmSetter T} {sup marked : ChronoField → Bool} (hs : SetterOk cfg set sup marked)
    {cs post : List ChronoCall} {src : List Nat} (hsrc : ∀ c ∈ src, IsScalar c) {ys : List ChronoCall} {r r' : Rd T} (hst : Steps (readHandler cfg set) r ys r') :
    ∀ (done : List ChronoCall), cs = done ++ ys.flatMap expansion ++ post → (∀ x ∈ ys.flatMap expansion, Considered cfg.enc x) →
      (∀ f ∈ fieldsOf (ys.flatMap expansion), sup f = true) → (fieldsOf (done ++ ys.flatMap expansion)).Nodup → SoFar cfg.enc marked cs src done r →
      SoFar cfg.enc marked cs src (done ++ ys.flatMap expansion) r' := by
  induction hst with
  | nil r => intro done _ _ _ _ h; simpa using h
  | cons r x a ys r' hc _ ih =>
    intro done hcs hx hsup hnd h
    rw [List.flatMap_cons] at hcs hx hsup hnd ⊢
    rw [← List.append_assoc] at hcs hnd ⊢
    rw [fieldsOf_append] at hsup
    refine ih _ hcs (fun y hy => hx y (by simp [hy])) (fun f hf => hsup f (by simp [hf])) hnd ?_
    rcases h with h | h
    · exact sofar_err hs h hc
    · have hc' : r.simples cfg set (expansion x) = some a := by rw [← call_expansion cfg set r h.2.1 x]; exact hc
      refine sofar_simples hl hs hsrc (post := ys.flatMap expansion ++ post) _ (fun y hy => hx y (by simp [hy])) (fun f hf => hsup f (by simp [hf])) done
        (by rw [hcs]; simp) ?_ (Or.inr h) hc'
      rw [fieldsOf_append] at hnd
      exact (List.nodup_append.1 hnd).1

/-- Literal text of characters below 128. -/
def plainText : ChronoCall → Bool
  | .text t => t.all fun c => decide (c < 128)
  | _ => false

theorem item_readable {e : Enc} {i : FmtItem} (h : i.Ok e) : ∀ x ∈ expansion i.call, Readable x ∨ ∃ t, x = .text t ∧ ∀ y ∈ t, IsScalar y ∧ encode e y = [y] := by
  have lift : ∀ x : ChronoCall, ((fieldOf x).isSome = true ∨ x = .whitespace ∨ plainText x = true) → Readable x ∨ ∃ t, x = .text t ∧ ∀ y ∈ t, IsScalar y ∧ encode e y = [y] := by
    rintro x (h | h | h)
    · exact Or.inl (Or.inl h)
    · exact Or.inl (Or.inr h)
    · cases x with
      | text t =>
        refine Or.inr ⟨_, rfl, fun y hy => ?_⟩
        have : y < 128 := by simpa using (List.all_eq_true.1 h) y hy
        exact ⟨ascii_scalar this, encode_ascii e y this⟩
      | _ => cases h
  have hdec : ∀ p ∈ conversions, ∀ x ∈ expansion p.2, (fieldOf x).isSome = true ∨ x = .whitespace ∨ plainText x = true := by decide +kernel
  have hdec' : ∀ p ∈ modified, ∀ x ∈ expansion p.2.2, (fieldOf x).isSome = true ∨ x = .whitespace ∨ plainText x = true := by decide +kernel
  intro x hx
  cases i with
  | lit t =>
    simp only [FmtItem.call, expansion, List.mem_singleton] at hx
    subst hx
    exact Or.inr ⟨_, rfl, fun y hy => ⟨(h.2 y hy).1, (h.2 y hy).2.1⟩⟩
  | space c =>
    simp only [FmtItem.call, expansion, List.mem_singleton] at hx
    subst hx
    exact Or.inl (Or.inr rfl)
  | conv t c =>
    rcases h with ⟨y, rfl, hy⟩ | ⟨m, y, rfl, hy⟩
    · exact lift _ (hdec _ hy x hx)
    · exact lift _ (hdec' _ hy x hx)

/-- If the fields of a format are supported, different and pass the final check, then a wrong format is reported only if
    literal text did not stand in the source. -/
theorem scan_wrong_format {cfg : ChronoCfg} (hl : GoodLayouts cfg.enc cfg.lay) {set : TmSetter T} {sup marked : ChronoField → Bool} (hs : SetterOk cfg set sup marked)
    {is : List FmtItem} (hok : FormatOk cfg.enc is) (hz : .tzName ∉ callsOf is) (hsup : ∀ f ∈ fieldsOf (callsOf is), sup f = true) (hnd : (fieldsOf (callsOf is)).Nodup)
    (hv : ∀ st : SetterState, st.set = ((fieldsOf (callsOf is)).filter marked).reverse → st.verify = true) {t0 : T} {src : List Nat} (hsrc : ∀ c ∈ src, IsScalar c)
    (h : chronoScan cfg set (formatText is) t0 (encodes cfg.enc src) = .err .invalidFormatString) : Mismatch (callsOf is) (src.dropWhile isSpace) := by
  unfold chronoScan at h
  rw [skipSpace_encodes cfg.enc _ _ hsrc (hl _ hsrc)] at h
  split at h
  · cases h
  · rw [Res.bind_ok] at h
    have hsc : ∀ c ∈ src.dropWhile isSpace, IsScalar c := fun c hc => hsrc c (List.dropWhile_subset _ hc)
    generalize src.dropWhile isSpace = u at *
    generalize hp : encodes cfg.enc u = p at *
    split at h
    · cases h
    · rename_i r q hparse
      have herr : r.err = some .invalidFormatString := by
        cases he : r.err with
        | none => rw [he] at h; cases h
        | some x => rw [he] at h; cases h; rfl
      have hcl : callsOf is = (is.map FmtItem.call).flatMap expansion := by unfold callsOf; rw [List.flatMap_map]
      obtain ⟨ys, hpre, hst⟩ := items_began (h := readHandler cfg set) (fun _ => rfl) hok hparse
      have hx : ∀ x ∈ callsOf is, Considered cfg.enc x := by
        intro x hx
        obtain ⟨i, hi, hxi⟩ := List.mem_flatMap.1 hx
        exact ⟨item_readable (hok.2.1 i hi) x hxi, item_oneField (hok.2.1 i hi) x hxi, fun h => hz (h ▸ hx)⟩
      have hstart : SoFar cfg.enc marked (callsOf is) u [] (⟨p, p, t0, {}, none⟩ : Rd T) := Or.inr ⟨rfl, rfl, rfl, [], u, rfl, hp.symm, rfl⟩
      have fin : ∀ zs, zs <+: is.map FmtItem.call → ∀ r', Steps (readHandler cfg set) ⟨p, p, t0, {}, none⟩ zs r' →
          SoFar cfg.enc marked (callsOf is) u (zs.flatMap expansion) r' := by
        intro zs hz r' hst
        obtain ⟨ws, hw⟩ := hz
        have hcs : callsOf is = zs.flatMap expansion ++ ws.flatMap expansion := by rw [hcl, ← hw, List.flatMap_append]
        have := sofar_steps hl hs hsc hst [] (post := ws.flatMap expansion) (by rw [hcs]; rfl) (fun x hx' => hx x (by rw [hcs]; simp [hx']))
          (fun f hf => hsup f (by rw [hcs, fieldsOf_append]; simp [hf])) (by rw [hcs, fieldsOf_append] at hnd; exact (List.nodup_append.1 hnd).1) hstart
        simpa using this
      rcases List.prefix_concat_iff.1 hpre with heq | hpre
      · rw [heq] at hst
        obtain ⟨a, ha, hver⟩ : ∃ a, Steps (readHandler cfg set) ⟨p, p, t0, {}, none⟩ (is.map FmtItem.call) a ∧ (readHandler cfg set).call a .verify = some r := by
          have split : ∀ (xs : List ChronoCall) (s : Rd T), Steps (readHandler cfg set) s (xs ++ [.verify]) r →
              ∃ a, Steps (readHandler cfg set) s xs a ∧ (readHandler cfg set).call a .verify = some r := by
            intro xs
            induction xs with
            | nil => intro s h; cases h with | cons _ _ b _ _ hc hn => cases hn; exact ⟨s, .nil _, hc⟩
            | cons x xs ih =>
              intro s h
              cases h with
              | cons _ _ b _ _ hc hn =>
                obtain ⟨a, ha, hv⟩ := ih b hn
                exact ⟨a, .cons _ _ _ _ _ hc ha, hv⟩
          exact split _ _ hst
        rcases fin _ (List.prefix_refl _) a ha with ⟨e, he, hm⟩ | ⟨h1, h2, h3, _⟩
        · have := closed_call (hs.err e) he .verify hver
          rw [herr] at this
          cases this
          exact hm rfl
        · exfalso
          have hver' : a.verify set = some r := hver
          unfold Rd.verify at hver'
          dsimp only at hver'
          rw [← hcl] at h3
          rw [if_pos (hv a.st h3)] at hver'
          obtain ⟨b, hb, hver'⟩ := bind_some_iff.1 hver'
          have hbe : b.err = none := by
            split at hb
            · rw [(hs.marks.handleAmPm _ _ hb).1]; exact h1
            · cases hb; exact h1
          have hre : r.err = none := by
            split at hver'
            · rw [(hs.marks.handleYear _ _ hver').1]; exact hbe
            · cases hver'; exact hbe
          rw [hre] at herr; cases herr
      · rcases fin _ hpre r hst with ⟨e, he, hm⟩ | ⟨h1, _⟩
        · rw [herr] at he; cases he; exact hm rfl
        · rw [herr] at h1; cases h1

end Scn
