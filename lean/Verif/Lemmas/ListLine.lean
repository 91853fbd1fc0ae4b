import Verif.Spec.ListLine
import Verif.Lemmas.LogLine
import Verif.Props.Ranges
/-
Reading back lines with lists, sets, maps and tuples.
-/
namespace Scn
open Spec

variable {L V W : Type}

theorem goodLayouts_view (e : Enc) (sp : Specs) (s : List Nat) : GoodLayouts e (viewLayout sp s) := by
  unfold viewLayout
  split
  · exact goodLayouts_whole e
  · exact goodLayouts_contiguous e

theorem goodLayouts_viewSource (e : Enc) : GoodLayouts e viewSource := goodLayouts_whole e

theorem collScans_map (e wide : Enc) (gloc : LocaleData) (ms : List Coll) :
    Coll.scans e wide gloc ms = ms.map fun m s => m.scan e wide gloc {} [] s := by
  induction ms with
  | nil => rw [Coll.scans]; rfl
  | cons m ms ih => rw [Coll.scans, ih]; rfl

theorem collScan_item (e wide : Enc) (gloc : LocaleData) (d : Dest) (sp : Specs) (init : List CollVal) (s : List Nat) :
    (Coll.item d).scan e wide gloc sp init s = (builtinScan e wide gloc 0 (viewLayout sp s) d sp s).map fun r => (.val r.1, r.2) := by rw [Coll.scan]

theorem collScan_range (e wide : Enc) (gloc : LocaleData) (b : Brackets) (n : Nat) (el : Coll) (sp : Specs) (init : List CollVal) (s : List Nat) :
    (Coll.range b n el).scan e wide gloc sp init s =
      (scanRange e viewSource b (fun s => el.scan e wide gloc sp [] s) (fun l v => l ++ [v]) n init s).map fun r => (.list r.1, r.2) := by rw [Coll.scan]

theorem collScan_tuple (e wide : Enc) (gloc : LocaleData) (b : Brackets) (ms : List Coll) (sp : Specs) (init : List CollVal) (s : List Nat) :
    (Coll.tuple b ms).scan e wide gloc sp init s =
      (scanTuple e viewSource b (ms.map fun m s => m.scan e wide gloc {} [] s) s).map fun r => (.list r.1, r.2) := by
  rw [Coll.scan, collScans_map]

theorem readsAs_map {e : Enc} {rd : List Nat → Res (V × List Nat)} {v : V} {text : List Nat} {follow : List Nat → Prop} (f : V → W)
    (h : ReadsAs e rd v text follow) : ReadsAs e (fun s => (rd s).map fun r => (f r.1, r.2)) (f v) text follow := by
  intro rest hr hf
  obtain ⟨p, h1, h2, h3⟩ := h rest hr hf
  exact ⟨p, by dsimp only; rw [h1]; rfl, h2, h3⟩

theorem itemsText_scalar {V : Type} {e : Enc} {sep gap : List Nat} (hsep : ∀ c ∈ sep, IsScalar c) (hgap : Spaces gap) {xs : List (Item V)} (h : ItemsOk e xs) :
    ∀ c ∈ itemsText sep gap xs, IsScalar c := by
  cases xs with
  | nil => exact fun c hc => (hgap c hc).1
  | cons x xs =>
    exact scalar_append (h.text x (by simp)) (scalar_append (fun c hc => (h.after x (by simp) c hc).1) (moreItems_scalar hsep h.tail))

theorem collShows_scalar {e : Enc} (loc : LocaleData) {c : Coll} {w : Option Written} {v : CollVal} {text : List Nat} {follow : List Nat → Prop}
    (h : CollShows e c w v text follow) : ∀ x ∈ text, IsScalar x := by
  have h1 : ∀ n, n < 128 → ∀ x ∈ [n], IsScalar x := by
    intro n hn x hx
    rw [List.mem_singleton] at hx
    subst hx
    exact ascii_scalar hn
  have hsp : ∀ {s}, Spaces s → ∀ x ∈ s, IsScalar x := fun h x hx => (h x hx).1
  induction h with
  | item ws h hty hws hsk => exact scalar_append (hsp hws) (shows_text h).1
  | written ws w hws hsk hw hl h => exact scalar_append (hsp hws) (pad_scalar hw _ (shownAs_facts e e loc 0 hw hl h).1)
  | range o c n hb lead gap hlead hgap xs hn hx hafter hstart hf ih =>
    refine scalar_append (hsp hlead) (scalar_append (h1 o ?_) (scalar_append (itemsText_scalar (e := e) (h1 44 (by decide)) hgap ⟨ih, hafter⟩) (h1 c ?_)))
    all_goals rcases hb with hb | hb <;> cases hb <;> decide
  | tuple lead gap hlead hgap ms hx hafter hf ih =>
    refine scalar_append (hsp hlead) (scalar_append (h1 40 (by decide)) (scalar_append (itemsText_scalar (e := e) (h1 44 (by decide)) hgap ⟨?_, ?_⟩) (h1 41 (by decide))))
    · intro x hx; obtain ⟨m, hm, rfl⟩ := List.mem_map.1 hx; exact ih m hm
    · intro x hx; obtain ⟨m, hm, rfl⟩ := List.mem_map.1 hx; exact hafter m hm
  | entry lead hlead k v hk hv hka hva hstart ih1 ih2 =>
    exact scalar_append (hsp hlead) (scalar_append ih1 (scalar_append (hsp hka) (scalar_append (h1 58 (by decide)) (scalar_append ih2 (hsp hva)))))

/-- The specification that is parsed. -/
def writtenSpecs (e : Enc) (w : Option Written) : Specs := match w with | none => {} | some w => w.specs e

theorem foldl_snoc {V W : Type} (f : V → W) (xs : List V) (init : List W) : xs.foldl (fun a x => a ++ [f x]) init = init ++ xs.map f := by
  induction xs generalizing init with
  | nil => simp
  | cons x xs ih => rw [List.foldl_cons, ih]; simp

theorem range_tokens {o c : Nat} (hb : (o, c) = (91, 93) ∨ (o, c) = (123, 125)) (e : Enc) :
    Token [o] ∧ Token [c] ∧ [c].head? ≠ [44].head? ∧ encodes e [o] = [o] ∧ encodes e [c] = [c] := by
  have ha : ∀ c : Nat, c < 128 → encodes e [c] = [c] := fun c hc => encodes_asciis e [c] (by simpa using hc)
  rcases hb with hb | hb <;> cases hb <;>
    exact ⟨⟨_, [], rfl, by decide, by decide, by simp⟩, ⟨_, [], rfl, by decide, by decide, by simp⟩, by decide, ha _ (by decide), ha _ (by decide)⟩

/-- A tuple is read up to its closing bracket. -/
theorem tuple_exact {e : Enc} (wide : Enc) (gloc : LocaleData) (sp : Specs) (init : List CollVal) {lead gap : List Nat} (hlead : Spaces lead) (hgap : Spaces gap)
    {ms : List (Coll × Item CollVal)} (htext : ∀ m ∈ ms, ∀ c ∈ m.2.text, IsScalar c) (hafter : ∀ m ∈ ms, Spaces m.2.after)
    (hrd : ∀ m ∈ ms, ReadsAs e (fun s => m.1.scan e wide gloc {} [] s) m.2.val m.2.text m.2.follow) {rest : List Nat}
    (hf : ItemsFollow [44] (ms.map Prod.snd) ([41] ++ rest)) (hr : ∀ c ∈ rest, IsScalar c) :
    (Coll.tuple .tuple (ms.map Prod.fst)).scan e wide gloc sp init
        (encodes e (lead ++ ([40] ++ (itemsText [44] gap (ms.map Prod.snd) ++ [41])) ++ rest)) =
      .ok (.list (ms.map fun m => m.2.val), encodes e rest) := by
  have := C64_tuple_roundtrip e viewSource (goodLayouts_viewSource e) lead gap rest hr hlead hgap
    (ms.map fun m => (fun s => m.1.scan e wide gloc {} [] s, m.2))
    (by intro m hm; obtain ⟨m, hm', rfl⟩ := List.mem_map.1 hm; exact htext m hm')
    (by intro m hm; obtain ⟨m, hm', rfl⟩ := List.mem_map.1 hm; exact hafter m hm')
    (by intro m hm; obtain ⟨m, hm', rfl⟩ := List.mem_map.1 hm; exact hrd m hm')
    (by rw [List.map_map]; exact hf)
  simp only [List.map_map] at this
  rw [collScan_tuple, List.map_map]
  have h2 := congrArg (fun r => r.map fun r : List CollVal × List Nat => (CollVal.list r.1, r.2)) this
  simp only [List.append_assoc] at h2 ⊢
  exact h2

/-- More whitespace in front of a value does not matter, without a precision and without fill characters. -/
theorem argRead_spaces {e : Enc} {sp : Specs} (hp : sp.precision = 0) (ha : sp.align = .none) {rd : Reader V} (hsk : rd.skipWs = true) {lay : List Nat → Layout}
    (hl : GoodLayouts e lay) {ws s : List Nat} (hws : Spaces ws) (hs : ∀ c ∈ s, IsScalar c) (hne : s.dropWhile isSpace ≠ []) {r : V × List Nat}
    (h : argRead e sp rd lay (encodes e s) = .ok r) : argRead e sp rd lay (encodes e (ws ++ s)) = .ok r := by
  have hdrop : (ws ++ s).dropWhile isSpace = s.dropWhile isSpace := by
    clear hs hne h
    induction ws with
    | nil => rfl
    | cons c ws ih =>
      rw [List.cons_append, List.dropWhile_cons, if_pos (hws c (by simp)).2]
      exact ih fun x hx => hws x (by simp [hx])
  have hbef : ∀ t : List Nat, (∀ c ∈ t, IsScalar c) → t.dropWhile isSpace = s.dropWhile isSpace →
      argBefore e sp rd.skipWs (lay (encodes e t)) (encodes e t) =
        .ok (encodes e (s.dropWhile isSpace), if sp.width ≠ 0 then (textWidthOf e (between (encodes e t) (encodes e (s.dropWhile isSpace))) : Int) else 0) := by
    intro t ht hd
    unfold argBefore argPrefix
    rw [if_neg (by simp [hp]), if_neg (by simp [ha]), if_pos ⟨ha, hsk⟩, if_neg (by simp [hp]), skipSpace_drop e lay hl t _ ht hd hne, Res.map_ok]
    simp [hp]
  have hall : ∀ c ∈ ws ++ s, IsScalar c := scalar_append (fun c hc => (hws c hc).1) hs
  have hs1 := hbef s hs rfl
  have hs2 := hbef (ws ++ s) hall hdrop
  -- the whitespace is at least as wide
  have hle : textWidthOf e (between (encodes e s) (encodes e (s.dropWhile isSpace))) ≤
      textWidthOf e (between (encodes e (ws ++ s)) (encodes e (s.dropWhile isSpace))) := by
    have hsplit : s.takeWhile isSpace ++ s.dropWhile isSpace = s := List.takeWhile_append_dropWhile
    have htw : ∀ c ∈ s.takeWhile isSpace, IsScalar c := fun c hc => hs c (by rw [← hsplit]; exact List.mem_append_left _ hc)
    have h1 : between (encodes e s) (encodes e (s.dropWhile isSpace)) = encodes e (s.takeWhile isSpace) := by
      have := between_append (encodes e (s.takeWhile isSpace)) (encodes e (s.dropWhile isSpace))
      rwa [← encodes_append, hsplit] at this
    have h2 : between (encodes e (ws ++ s)) (encodes e (s.dropWhile isSpace)) = encodes e (ws ++ s.takeWhile isSpace) := by
      have := between_append (encodes e (ws ++ s.takeWhile isSpace)) (encodes e (s.dropWhile isSpace))
      rwa [← encodes_append, List.append_assoc, hsplit] at this
    rw [h1, h2, textWidthOf_encodes e _ htw, textWidthOf_encodes e _ (scalar_append (fun c hc => (hws c hc).1) htw)]
    unfold cols
    rw [List.map_append, List.sum_append]
    omega
  generalize textWidthOf e (between (encodes e s) (encodes e (s.dropWhile isSpace))) = n1 at hs1 hle
  generalize textWidthOf e (between (encodes e (ws ++ s)) (encodes e (s.dropWhile isSpace))) = n2 at hs2 hle
  unfold argRead at h ⊢
  rw [hs1, Res.bind_ok] at h
  rw [hs2, Res.bind_ok]
  have hval : ∀ w, argValue e sp rd (lay (encodes e (s.dropWhile isSpace))) w (encodes e (s.dropWhile isSpace)) =
      argValue e sp rd (lay (encodes e (s.dropWhile isSpace))) 0 (encodes e (s.dropWhile isSpace)) := by
    intro w; unfold argValue; rw [if_neg (by simp [hp]), if_neg (by simp [hp])]
  have haft : ∀ l w v t, argAfter e sp rd.skipWs l w v t = .ok (t, 0) := by
    intro l w v t
    unfold argAfter argPostfix
    split
    · rfl
    · rw [if_neg (by simp [ha]), if_neg (by simp [hsk])]
  dsimp only at h ⊢
  rw [hval] at h ⊢
  generalize argValue e sp rd (lay (encodes e (s.dropWhile isSpace))) 0 (encodes e (s.dropWhile isSpace)) = x at h ⊢
  cases x with
  | ub => cases h
  | err y => cases h
  | ok x =>
    simp only [Res.bind_ok, haft] at h ⊢
    unfold checkWidths at h ⊢
    by_cases hw : sp.width = 0
    · simp only [hw, hp, ne_eq, not_true_eq_false, if_false, false_and] at h ⊢
      exact h
    · simp only [hw, hp, ne_eq, not_true_eq_false, not_false_eq_true, if_true, if_false, true_and, false_and] at h ⊢
      split at h
      · cases h
      · rename_i hlt
        rw [if_neg (by omega)]
        exact h

/-- A value printed with padding, with whitespace in front. -/
theorem shownAs_spaced {e wide : Enc} (loc : LocaleData) (old : Nat) {w : Written} {ty : ArgTy} (hw : w.Readable e ty []) (hloc : w.localized = false)
    {d : Dest} {v : Val} {text : List Nat} {follow : List Nat → Prop} (h : ShownAs e w.field w.letter d v text follow) {tail : List Nat}
    (hc : w.field.Clear (rightByDefault d w.letter) (keepsSpace d) text follow tail) (htail : ∀ c ∈ tail, IsScalar c) {ws : List Nat} (hws : Spaces ws)
    (hsk : ws ≠ [] → w.side = .unspecified ∧ w.field.precision = 0 ∧ keepsSpace d = false) (lay : List Nat → Layout) (hlay : GoodLayouts e lay) :
    d.readSpecs e wide loc old (w.specs e) lay (encodes e (ws ++ w.field.pad (rightByDefault d w.letter) text ++ tail)) = .ok (v, encodes e tail) := by
  have hpad := pad_scalar hw (rightByDefault d w.letter) (shownAs_facts e e loc 0 hw hloc h).1
  have hall := scalar_append hpad htail
  have hbase := shownAs_read (wide := wide) loc old hw hloc h hc htail lay (fun t ht => hlay t fun c hc => hall c (ht.mem hc))
  rw [List.append_assoc]
  by_cases hn : ws = []
  · subst hn; exact hbase
  · obtain ⟨hside, hprec, hkeep⟩ := hsk hn
    obtain ⟨h1, h2, h3, ⟨keeps, h4, h5, h6, h7⟩, h8⟩ := shownAs_facts e wide loc old hw hloc h
    have hk : keeps = false := by rw [h6 hside]; exact hkeep
    have hd := describes_written hw
    unfold Dest.readSpecs at hbase ⊢
    rw [h3] at hbase ⊢
    dsimp only at hbase ⊢
    refine argRead_spaces (by rw [hd.precision]; exact hprec) ?_ (by rw [h4, hk]; rfl) hlay hws hall ?_ hbase
    · have := hd.side
      rw [show w.field.side = .unspecified from hside] at this
      revert this
      cases (w.specs e).align <;> simp [Align.side]
    · intro hnil
      have hx : ∀ {l : List Nat}, l.dropWhile isSpace = [] → ∀ c ∈ l, isSpace c = true := by
        intro l
        induction l with
        | nil => intro _ c hc; cases hc
        | cons b l ih =>
          intro h c hc
          rw [List.dropWhile_cons] at h
          split at h
          · rename_i hb
            rcases List.mem_cons.1 hc with rfl | hc
            · exact hb
            · exact ih h c hc
          · cases h
      cases text with
      | nil => exact h2 rfl
      | cons c t =>
        have := hx hnil c (List.mem_append_left _ (by unfold PaddedField.pad; simp))
        rw [h7 hk c rfl] at this
        cases this

/-- What is shown is read. -/
theorem collShows_read {e : Enc} (wide : Enc) (gloc : LocaleData) {c : Coll} {w : Option Written} {v : CollVal} {text : List Nat}
    {follow : List Nat → Prop} (h : CollShows e c w v text follow) :
    ReadsAs e (fun s => c.scan e wide gloc (writtenSpecs e w) [] s) v text follow := by
  have h44 : encodes e [44] = [44] := encodes_asciis e [44] (by simp)
  have t44 : Token [44] := ⟨44, [], rfl, by decide, by decide, by simp⟩
  induction h with
  | item ws h hty hws hsk =>
    intro rest hr hf
    obtain ⟨p, h1, h2, h3⟩ := shows_element e wide gloc 0 (viewLayout {} (encodes e (ws ++ _ ++ rest))) (goodLayouts_view _ _ _) h hty ws hws hsk rest hr hf
    refine ⟨p, ?_, h2, h3⟩
    show Coll.scan _ _ _ _ {} _ _ = _
    rw [collScan_item, h1]
    rfl
  | @written d _ _ _ ws w hws hsk hw hl h =>
    intro rest hr hf
    refine ⟨rest, ?_, hr, rfl⟩
    show Coll.scan _ _ _ _ (w.specs e) _ _ = _
    rw [collScan_item, builtinScan, shownAs_spaced gloc 0 hw hl h hf hr hws hsk _ (goodLayouts_view _ _ _)]
    rfl
  | @range el w o c n hb lead gap hlead hgap xs hn hx hafter hstart hf ih =>
    obtain ⟨k1, k2, k3, k4, k5⟩ := range_tokens hb e
    have := C49_nested e viewSource (goodLayouts_viewSource e) [o] [44] [c] lead gap k1 t44 k2 k3 hlead hgap
      (fun s => el.scan e wide gloc (writtenSpecs e w) [] s) (fun l v => l ++ [v]) n [] xs hn (fun x hxm => collShows_scalar gloc (hx x hxm)) hafter hstart ih hf
    rw [k4, k5, h44, foldl_snoc, List.nil_append] at this
    have h2 := readsAs_map CollVal.list this
    intro rest hr hf
    obtain ⟨p, h1, h3⟩ := h2 rest hr hf
    exact ⟨p, by rw [← h1]; exact collScan_range _ _ _ _ _ _ _ _ _, h3⟩
  | tuple lead gap hlead hgap ms hx hafter hf ih =>
    exact fun rest hr _ => ⟨rest, tuple_exact wide gloc {} [] hlead hgap (fun m hm => collShows_scalar gloc (hx m hm)) hafter ih (hf rest) hr, hr, rfl⟩
  | @entry kc vc lead hlead k v hk hv hka hva hstart ih1 ih2 =>
    have := C64_map_entry e viewSource (goodLayouts_viewSource e) lead hlead (fun s => kc.scan e wide gloc {} [] s, k) (fun s => vc.scan e wide gloc {} [] s, v)
      (by intro m hm; simp at hm; rcases hm with rfl | rfl
          · exact collShows_scalar gloc hk
          · exact collShows_scalar gloc hv)
      (by intro m hm; simp at hm; rcases hm with rfl | rfl
          · exact hka
          · exact hva)
      (by intro m hm; simp at hm; rcases hm with rfl | rfl
          · exact ih1
          · exact ih2) hstart
    have h2 := readsAs_map CollVal.list this
    intro rest hr hf
    obtain ⟨p, h1, h3⟩ := h2 rest hr hf
    exact ⟨p, by rw [← h1]; exact collScan_tuple _ _ _ _ _ _ _ _, h3⟩

/-- What is shown at the top of an argument is read exactly. -/
theorem listShows_read {e : Enc} (wide : Enc) (gloc : LocaleData) {c : Coll} {w : Option Written} {init : List CollVal} {v : CollVal} {text : List Nat}
    (h : ListShows e c w init v text) {rest : List Nat} (hr : ∀ c ∈ rest, IsScalar c) :
    c.scan e wide gloc (writtenSpecs e w) init (encodes e (text ++ rest)) = .ok (v, encodes e rest) := by
  obtain ⟨vs, h, hv⟩ := h
  have h44 : encodes e [44] = [44] := encodes_asciis e [44] (by simp)
  have t44 : Token [44] := ⟨44, [], rfl, by decide, by decide, by simp⟩
  cases c with
  | item d => exact hv.elim
  | range b n el =>
    dsimp only at hv
    subst hv
    generalize hF : (fun _ : List Nat => True) = F at h
    cases h with
    | range o c n hb lead gap hlead hgap xs hn hx hafter hstart hf =>
      obtain ⟨k1, k2, k3, k4, k5⟩ := range_tokens hb e
      have := C49_roundtrip_partial e viewSource (goodLayouts_viewSource e) [o] [44] [c] lead gap rest k1 t44 k2 k3 hr hlead hgap
        (fun s => el.scan e wide gloc (writtenSpecs e w) [] s) (fun l v => l ++ [v]) n init xs hn (fun x hxm => collShows_scalar gloc (hx x hxm)) hafter hstart
        (fun x hxm => collShows_read wide gloc (hx x hxm)) (hf rest)
      rw [k4, k5, h44, foldl_snoc] at this
      rw [collScan_range]
      have h2 := congrArg (fun r => r.map fun r : List CollVal × List Nat => (CollVal.list r.1, r.2)) this
      simp only [List.append_assoc] at h2 ⊢
      exact h2
  | tuple b ms =>
    obtain ⟨rfl, rfl⟩ := hv
    generalize hF : (fun _ : List Nat => True) = F at h
    generalize hB : Brackets.tuple = B at h
    cases h with
    | tuple lead gap hlead hgap ms hx hafter hf =>
      exact tuple_exact wide gloc _ _ hlead hgap (fun m hm => collShows_scalar gloc (hx m hm)) hafter (fun m hm => collShows_read wide gloc (hx m hm)) (hf rest) hr
    | entry => cases hB

/-- What is printed for a part is printed as the part says; a specification is one for the elements. -/
def Spec.ListPart.Ok (e : Enc) : ListPart → Prop
  | .value x => x.Ok e
  | .list _ c w init v text => ListShows e c w init v text ∧ ∀ w', w = some w' → w'.render e ≠ [] ∧ ∃ d, InnerType c d ∧ w'.Readable e d.argTy []

/-- The scanner of a collection sees the rest of the source, and leaves what it leaves. -/
theorem collProg_rest (e wide : Enc) (gloc : LocaleData) (c : Coll) (sp : Specs) (init : List CollVal) (l : Option L) {s r : List Nat} {v : CollVal}
    (h : c.scan e wide gloc sp init s = .ok (v, r)) (hr : r <:+ s) : onRest s l (collProg e wide gloc c sp init) = .ok (v, r) := by
  unfold collProg
  simp only [onRest, Nat.zero_le, if_true, List.drop_zero]
  rw [h]
  dsimp only
  simp only [onRest]
  rw [if_pos (by omega)]
  obtain ⟨a, rfl⟩ := hr
  rw [List.length_append, Nat.add_sub_cancel, List.drop_left]

theorem innerType_leaf {c : Coll} {d : Dest} (h : InnerType c d) : c.leaf = some d := by
  induction h with
  | item d => rfl
  | range b n h ih => exact ih

/-- The specification is parsed. -/
theorem collScanner_written {e wide : Enc} {rx : RegexCfg} {gloc : LocaleData} {c : Coll} {init : List CollVal} {w : Written} (hne : w.render e ≠ []) {d : Dest}
    (hi : InnerType c d) (hw : w.Readable e d.argTy []) (r : List Nat) :
    (collScanner (L := L) rx e wide gloc c init).parse (w.render e ++ 125 :: r) = some (125 :: r, collProg e wide gloc c (w.specs e) init) := by
  obtain ⟨sp, h1, h2⟩ := parseSpecs_written rx e d.argTy w r ⟨hw.align, hw.width, hw.precision, hw.localized, hw.letter, fun h => absurd h hne⟩
  obtain ⟨_, _, _, _, _, _, _, _, _, _, _, rfl⟩ := h2
  simp only [collScanner, collParse, innerType_leaf hi, builtinParse]
  rw [if_neg (by simp), h1]
  rfl

theorem collScanner_empty (e wide : Enc) (rx : RegexCfg) (gloc : LocaleData) (c : Coll) (init : List CollVal) :
    (collScanner (L := L) rx e wide gloc c init).parse [] = some ([], collProg e wide gloc c {} init) := by
  simp only [collScanner, collParse]
  cases c.leaf <;> rfl

/-- The reader of a part. -/
def listReader (env : Env V) (e : Enc) (i : Nat) : ListPart → List Nat → Res (V × List Nat)
  | .value x => match x.spec with | none => env.readDefault i | some w => env.readSpecs i (w.specs e)
  | .list _ _ w _ _ _ => match w with | none => env.readDefault i | some w => fun s => (env.readCustom i (w.render e ++ [125]) s).2

/-- The fields of the format string, with the readers of the call. -/
def listFields (env : Env V) (e : Enc) (xs : List (Nat × ListPart)) : List (CallField V) :=
  xs.map fun x => ⟨encodes e x.2.gap, x.1, x.2.spec e, listReader env e x.1 x.2⟩

theorem listFormat_eq (env : Env V) (e : Enc) (auto : Bool) (xs : List (Nat × ListPart)) (last : List Nat) :
    listFormat e auto xs last = escapedFormat auto (listFields env e xs) (encodes e last) := by
  unfold listFormat escapedFormat callFormat listFields
  rw [List.map_map, List.flatMap_map]
  congr 2

theorem listLine_cons (p : ListPart) (ps : List ListPart) (tail : List Nat) : listLine (p :: ps) tail = p.gap ++ (p.shown ++ listLine ps tail) := by
  simp [listLine]

theorem listPart_scalar {e : Enc} (loc : LocaleData) {p : ListPart} (h : p.Ok e) : ∀ c ∈ p.shown, IsScalar c := by
  cases p with
  | value x => exact printedField_scalar loc h
  | list gap c w init v text =>
    obtain ⟨⟨vs, h, _⟩, _⟩ := h
    exact collShows_scalar loc h

theorem listLine_scalar {e : Enc} (loc : LocaleData) (ps : List ListPart) (tail : List Nat) (hok : ∀ x ∈ ps, x.Ok e)
    (hg : ∀ x ∈ ps, ∀ c ∈ x.gap, Simple e c) (ht : ∀ c ∈ tail, IsScalar c) : ∀ c ∈ listLine ps tail, IsScalar c := by
  intro c hc
  rcases List.mem_append.1 hc with h | h
  · obtain ⟨x, hx, h⟩ := List.mem_flatMap.1 h
    rcases List.mem_append.1 h with h | h
    · exact (hg x hx c h).1
    · exact listPart_scalar loc (hok x hx) c h
  · exact ht c h

end Scn
