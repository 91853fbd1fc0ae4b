import Verif.Lemmas.Fields2
/-
Properties C35, C36, C54, C59, C60: width, precision, fill and whitespace of fields.
-/
namespace Scn
open Spec

variable {V : Type}

/-! ### C35 -/

/-- C35: the view a limited field reads from is the longest prefix of whole characters of at most
    `n` columns. -/
theorem C35_view (e : Enc) (n : Nat) (cps : List Nat) (h : ∀ cp ∈ cps, IsScalar cp) :
    ∃ v, takeWidth e n (encodes e cps) = encodes e v ∧ v <+: cps ∧ cols v ≤ n ∧
      ∀ p, p <+: cps → cols p ≤ n → p <+: v :=
  ⟨fit n cps, takeWidth_encodes e n cps h, fit_prefix n cps, fit_cols n cps, fun p hp hc => fit_longest n cps p hp hc⟩

/-- A wide character straddling the limit is not offered: two columns of "a", U+3042 (a wide
    letter), "b". -/
example : takeWidth .utf8 2 (encodes .utf8 [97, 0x3042, 98]) = [97] ∧
    takeWidth .utf8 3 (encodes .utf8 [97, 0x3042, 98]) = [97, 0xe3, 0x81, 0x82] := by decide

/-- The limit is lost on malformed text: a stray continuation byte makes the view unlimited. -/
theorem C35_malformed_unlimited (n : Nat) (hn : 1 ≤ n) (s : List Nat) : takeWidth .utf8 n (0x80 :: s) = 0x80 :: s := by
  have aux : ∀ (s : List Nat) (c left : Int), left < 0 → takeWidthAux .utf8 c left s = s := by
    intro s
    induction s with
    | nil => intros; rfl
    | cons x xs ih =>
      intro c left hl
      rw [takeWidthAux, if_neg (by omega), if_neg (by omega), ih _ _ (by omega)]
  have hlen : cpLength .utf8 0x80 = 0 := by decide
  have hw : widthAt .utf8 (0x80 :: s) = 0 := by rw [widthAt, if_pos hlen]
  unfold takeWidth
  rw [takeWidthAux, hw, if_neg (by omega), if_pos rfl, hlen, aux _ _ _ (by decide)]

example : takeWidth .utf8 1 [0x80, 97, 97, 97] = [0x80, 97, 97, 97] := C35_malformed_unlimited 1 (by decide) _

/-- What a successful field has read: see `C36_success_partial`. -/
structure FieldRead (F : PaddedField) (skipWs : Bool) (rd : List Nat → Res (V × List Nat)) (cps : List Nat) (v : V)
    (rest pre val post view : List Nat) : Prop where
  split : cps = pre ++ (val ++ (post ++ rest))
  value : rd view = .ok (v, view.drop val.length)
  within : val <+: view
  offered : view <+: val ++ (post ++ rest)
  unlimited : F.precision = 0 → view = val ++ (post ++ rest)
  limited : F.precision ≠ 0 → cols pre + cols view ≤ F.precision ∧
    ∀ p, p <+: val ++ (post ++ rest) → cols pre + cols p ≤ F.precision → p <+: view
  width : F.width ≤ cols pre + cols val + cols post
  precision : F.precision ≠ 0 → cols pre + cols val + cols post ≤ F.precision
  before : ∀ c ∈ pre, match F.side with
    | .before | .both => c = F.fill
    | .after => False
    | .unspecified => skipWs = true ∧ isSpace c = true
  after : ∀ c ∈ post, match F.side with
    | .after | .both => c = F.fill
    | .before => False
    | .unspecified => skipWs = false ∧ isSpace c = true

theorem drop_prefix_length {α : Type} {a b : List α} (h : a <+: b) : b = a ++ b.drop a.length := by
  obtain ⟨t, rfl⟩ := h; rw [List.drop_left]

theorem before_prefix (F : PaddedField) (skipWs : Bool) (cps : List Nat) : F.before skipWs cps <+: cps := by
  have := view_prefix F 0 cps
  unfold PaddedField.before
  split
  · exact (List.takeWhile_prefix _).trans this
  · exact (List.takeWhile_prefix _).trans this
  · exact List.nil_prefix
  · split
    · exact (List.takeWhile_prefix _).trans this
    · exact List.nil_prefix

theorem after_prefix (F : PaddedField) (skipWs : Bool) (u : Nat) (cps : List Nat) : F.after skipWs u cps <+: cps := by
  have := view_prefix F u cps
  unfold PaddedField.after
  split
  · exact (List.takeWhile_prefix _).trans this
  · exact (List.takeWhile_prefix _).trans this
  · exact List.nil_prefix
  · split
    · exact (List.takeWhile_prefix _).trans this
    · exact List.nil_prefix

theorem read_ok (F : PaddedField) (skipWs : Bool) (rd : List Nat → Res (V × List Nat))
    (hsuf : ∀ cps v r, rd cps = .ok (v, r) → r <:+ cps) (cps rest : List Nat) (v : V)
    (h : F.read skipWs rd cps = .ok (v, rest)) :
    ∃ pre val post view, FieldRead F skipWs rd cps v rest pre val post view := by
  unfold PaddedField.read at h
  dsimp only at h
  split at h
  · cases h
  split at h
  · cases h
  rename_i h1 h2
  have hpre := before_prefix F skipWs cps
  have hpm : ∀ c ∈ F.before skipWs cps, match F.side with
      | .before | .both => c = F.fill
      | .after => False
      | .unspecified => skipWs = true ∧ isSpace c = true := by
    intro c hc
    unfold PaddedField.before at hc
    cases hside : F.side <;> simp only [hside] at hc ⊢
    · split at hc
      · rename_i hk; exact ⟨hk, (mem_takeWhile hc).2⟩
      · cases hc
    · cases hc
    · simpa using (mem_takeWhile hc).2
    · simpa using (mem_takeWhile hc).2
  have hpc : F.precision ≠ 0 → cols (F.before skipWs cps) ≤ F.precision := before_cols F skipWs cps
  generalize F.before skipWs cps = pre at *
  have hcps := drop_prefix_length hpre
  generalize cps.drop pre.length = cps1 at *
  cases hr : rd (F.view (cols pre) cps1) with
  | ub => rw [hr] at h; cases h
  | err x => rw [hr] at h; cases h
  | ok r =>
    obtain ⟨v', r⟩ := r
    rw [hr, Res.bind_ok] at h
    dsimp only at h
    have hs := hsuf _ _ _ hr
    have hview := suffix_take hs
    have hvc : F.precision ≠ 0 → cols ((F.view (cols pre) cps1).take ((F.view (cols pre) cps1).length - r.length)) ≤ F.precision - cols pre :=
      fun hp => take_prefix_view F _ _ hp _
    generalize hval : (F.view (cols pre) cps1).take ((F.view (cols pre) cps1).length - r.length) = val at *
    have hvp : val <+: F.view (cols pre) cps1 := ⟨r, hview.symm⟩
    have hvp1 : val <+: cps1 := hvp.trans (view_prefix F _ _)
    have hcps1 := drop_prefix_length hvp1
    generalize cps1.drop val.length = cps2 at *
    split at h
    · cases h
    rename_i hw
    simp only [Res.ok.injEq, Prod.mk.injEq] at h
    obtain ⟨rfl, rfl⟩ := h
    have hpost := after_prefix F skipWs (cols pre + cols val) cps2
    have hoc := fun hp => after_cols F skipWs (cols pre + cols val) cps2 hp
    have hqm : ∀ c ∈ F.after skipWs (cols pre + cols val) cps2, match F.side with
        | .after | .both => c = F.fill
        | .before => False
        | .unspecified => skipWs = false ∧ isSpace c = true := by
      intro c hc
      unfold PaddedField.after at hc
      cases hside : F.side <;> simp only [hside] at hc ⊢
      · split at hc
        · rename_i hk; exact ⟨by simpa using hk.1, (mem_takeWhile hc).2⟩
        · cases hc
      · simpa using (mem_takeWhile hc).2
      · cases hc
      · simpa using (mem_takeWhile hc).2
    generalize F.after skipWs (cols pre + cols val) cps2 = post at *
    have hcps2 := drop_prefix_length hpost
    refine ⟨pre, val, post, F.view (cols pre) cps1, ⟨?_, ?_, hvp, ?_, ?_, ?_, by omega, ?_, hpm, hqm⟩⟩
    · rw [← hcps2, ← hcps1]; exact hcps
    · rw [hr]
      congr 2
      conv => rhs; rw [hview]
      rw [List.drop_left]
    · rw [← hcps2, ← hcps1]; exact view_prefix F _ _
    · intro hp; rw [← hcps2, ← hcps1]; unfold PaddedField.view; rw [if_pos hp]
    · intro hp
      have := hpc hp
      rw [← hcps2, ← hcps1]
      unfold PaddedField.view
      rw [if_neg hp]
      refine ⟨by have := fit_cols (F.precision - cols pre) cps1; omega, fun p hpp hpl => fit_longest _ _ p hpp (by omega)⟩
    · intro hp
      have := hpc hp; have := hvc hp; have := hoc hp
      omega

/-- C35: a field with a precision consumes at most that many columns, and its value is read from
    the longest prefix of whole characters that keeps the field within them. (For every reader of
    whole characters; `intReader_whole` and `stringReader_whole` show that the integer reader and
    the string readers are.) -/
theorem C35_consumed (e : Enc) (sp : Specs) (F : PaddedField) (hF : Describes e sp F) (hp : F.precision ≠ 0)
    (rd : Reader V) (rds : List Nat → Res (V × List Nat)) {P : Nat → Prop} (hrd : Whole e P rd.read rds)
    (lay : List Nat → Layout) (cps : List Nat) (hP : ∀ cp ∈ cps, P cp)
    (hlay : ∀ t, t <:+ cps → GoodLayout e (lay (encodes e t)) t) (v : V) (s' : List Nat)
    (hok : argRead e sp rd lay (encodes e cps) = .ok (v, s')) :
    ∃ used rest, cps = used ++ rest ∧ s' = encodes e rest ∧ cols used ≤ F.precision ∧
      ∃ pre view more, cps = pre ++ more ∧ pre <+: used ∧ view <+: more ∧ cols pre + cols view ≤ F.precision ∧
        (∀ p, p <+: more → cols pre + cols p ≤ F.precision → p <+: view) ∧ ∃ r, rds view = .ok (v, r) := by
  rw [argRead_spec e sp F hF rd rds hrd lay cps hP hlay] at hok
  cases hr : F.read rd.skipWs rds cps with
  | ub => rw [hr] at hok; cases hok
  | err x => rw [hr] at hok; cases hok
  | ok r =>
    obtain ⟨v', rest⟩ := r
    rw [hr, Res.map_ok] at hok
    simp only [Res.ok.injEq, Prod.mk.injEq] at hok
    obtain ⟨rfl, rfl⟩ := hok
    obtain ⟨pre, val, post, view, hf⟩ := read_ok F rd.skipWs rds hrd.suffix cps rest v' hr
    refine ⟨pre ++ val ++ post, rest, ?_, rfl, ?_, pre, view, val ++ (post ++ rest), hf.split, ?_, hf.offered, (hf.limited hp).1,
      (hf.limited hp).2, _, hf.value⟩
    · rw [hf.split]; simp [List.append_assoc]
    · rw [cols_append, cols_append]; exact hf.precision hp
    · exact ⟨val ++ post, by simp [List.append_assoc]⟩

/-- The field `{:.4}` of an `int`. -/
def demoLimited : Specs := { ({} : Specs) with precision := 4 }

theorem describes_default (e : Enc) (w p : Nat) : Describes e { ({} : Specs) with width := w, precision := p } ⟨w, p, .unspecified, 32⟩ where
  width := rfl
  precision := rfl
  side := rfl
  fill := by cases e <;> rfl
  scalar := by show IsScalar 32; unfold IsScalar; decide

/-- "{:.4}" of an int on " 12345": the blank and three digits. -/
example : Describes .utf8 demoLimited ⟨0, 4, .unspecified, 32⟩ ∧
    argRead .utf8 demoLimited (intReader .utf8 ⟨32, true⟩ 10 false) (fun _ => .contiguous) [32, 49, 50, 51, 52, 53] =
      .ok (123, [52, 53]) := ⟨describes_default _ 0 4, by decide +kernel⟩

/-! ### C36 -/

/-- C36 (well-formed sources): `arg_reader` reads a field as specified by `Spec.PaddedField.read`:
    what is skipped before and after, what the value is read from, and which error is reported. -/
theorem C36_field_partial (e : Enc) (sp : Specs) (F : PaddedField) (hF : Describes e sp F)
    (rd : Reader V) (rds : List Nat → Res (V × List Nat)) {P : Nat → Prop} (hrd : Whole e P rd.read rds)
    (lay : List Nat → Layout) (cps : List Nat) (hP : ∀ cp ∈ cps, P cp)
    (hlay : ∀ t, t <:+ cps → GoodLayout e (lay (encodes e t)) t) :
    argRead e sp rd lay (encodes e cps) = (F.read rd.skipWs rds cps).map fun r => (r.1, encodes e r.2) :=
  argRead_spec e sp F hF rd rds hrd lay cps hP hlay

/-- C36 (well-formed sources): a successful field consists of skipped text, the value and skipped
    text, together at least as wide as the width and at most as wide as the precision; the text
    skipped is fill on the sides the alignment permits (whitespace without an alignment). -/
theorem C36_success_partial (e : Enc) (sp : Specs) (F : PaddedField) (hF : Describes e sp F)
    (rd : Reader V) (rds : List Nat → Res (V × List Nat)) {P : Nat → Prop} (hrd : Whole e P rd.read rds)
    (lay : List Nat → Layout) (cps : List Nat) (hP : ∀ cp ∈ cps, P cp)
    (hlay : ∀ t, t <:+ cps → GoodLayout e (lay (encodes e t)) t) (v : V) (s' : List Nat)
    (hok : argRead e sp rd lay (encodes e cps) = .ok (v, s')) :
    ∃ pre val post view rest, FieldRead F rd.skipWs rds cps v rest pre val post view ∧ s' = encodes e rest := by
  rw [argRead_spec e sp F hF rd rds hrd lay cps hP hlay] at hok
  cases hr : F.read rd.skipWs rds cps with
  | ub => rw [hr] at hok; cases hok
  | err x => rw [hr] at hok; cases hok
  | ok r =>
    obtain ⟨v', rest⟩ := r
    rw [hr, Res.map_ok] at hok
    simp only [Res.ok.injEq, Prod.mk.injEq] at hok
    obtain ⟨rfl, rfl⟩ := hok
    obtain ⟨pre, val, post, view, hf⟩ := read_ok F rd.skipWs rds hrd.suffix cps rest v' hr
    exact ⟨pre, val, post, view, rest, hf, rfl⟩

/-- The integer reader reads whole characters. -/
theorem C36_int_partial (e : Enc) (T : IntTy) (hT : T.Std) (base : Nat) (uo : Bool)
    (hbase : base = 0 ∨ (2 ≤ base ∧ base ≤ 36)) (sp : Specs) (F : PaddedField) (hF : Describes e sp F)
    (lay : List Nat → Layout) (cps : List Nat) (h : ∀ cp ∈ cps, IsScalar cp ∧ cp ≠ 16)
    (hlay : ∀ t, t <:+ cps → GoodLayout e (lay (encodes e t)) t) :
    argRead e sp (intReader e T base uo) lay (encodes e cps) =
      (F.read true (scanIntW T base uo) cps).map fun r => (r.1, encodes e r.2) :=
  argRead_spec e sp F hF _ _ (intReader_whole e T hT base uo hbase) lay cps h hlay

/-- So do the string readers. -/
theorem C36_string_partial (e : Enc) (sp : Specs) (F : PaddedField) (hF : Describes e sp F) (k : StrKind)
    (set : Nat → Bool)
    (hset : k = .characterSet → ∃ t : SetText, t.Ok ∧ SetSpecs e t sp ∧ (fun x => codeListed t x != t.inverted) = set)
    (hchar : k = .character → sp.precision ≠ 0) (lay : List Nat → Layout) (cps : List Nat) (h : ∀ cp ∈ cps, IsScalar cp)
    (hlay : ∀ t, t <:+ cps → GoodLayout e (lay (encodes e t)) t) :
    argRead e sp (stringReader e e sp k) lay (encodes e cps) =
      (F.read (k == .word) (fun cps =>
        if k = .characterSet ∧ cps.takeWhile set = [] then .err .invalidScannedValue
        else .ok (encodes e (cps.takeWhile fun c => ! kindStops k F.fill set c),
          cps.dropWhile fun c => ! kindStops k F.fill set c)) cps).map fun r => (r.1, encodes e r.2) :=
  argRead_spec e sp F hF _ _ (stringReader_whole e sp F hF k set hset hchar) lay cps h hlay

/-- "{:*^5.7}" of an int. -/
def demoCentered : Specs :=
  { ({} : Specs) with width := 5, precision := 7, align := .center, fill := ⟨[42, 0, 0, 0], 1⟩ }

/-- Hypotheses met; on "**42***" the whole text is the field, on "*42*" the field is too short, and
    "**42********" is read up to the seventh column. -/
example : Describes .utf8 demoCentered ⟨5, 7, .both, 42⟩ ∧
    argRead .utf8 demoCentered (intReader .utf8 ⟨32, true⟩ 10 false) (fun _ => .contiguous) [42, 42, 52, 50, 42, 42, 42] =
      .ok (42, []) ∧
    argRead .utf8 demoCentered (intReader .utf8 ⟨32, true⟩ 10 false) (fun _ => .contiguous) [42, 52, 50, 42] =
      .err .lengthTooShort ∧
    argRead .utf8 demoCentered (intReader .utf8 ⟨32, true⟩ 10 false) (fun _ => .contiguous)
      [42, 42, 52, 50, 42, 42, 42, 42, 42, 42, 42, 42] = .ok (42, [42, 42, 42, 42, 42]) := by
  refine ⟨⟨rfl, rfl, rfl, rfl, ⟨by show (42:Nat) < _; decide, by show ¬ (_ ≤ (42:Nat) ∧ _); decide⟩⟩, ?_, ?_, ?_⟩ <;> decide +kernel

/-! ### C54 -/

theorem dropWhile_head? {α : Type} {p : α → Bool} {l : List α} {c : α} (h : (l.dropWhile p).head? = some c) : p c = false := by
  induction l with
  | nil => cases h
  | cons x xs ih =>
    by_cases hx : p x = true
    · rw [List.dropWhile_cons_of_pos hx] at h; exact ih h
    · rw [List.dropWhile_cons_of_neg hx] at h
      simp only [List.head?_cons, Option.some.injEq] at h
      subst h; simpa using hx

/-- C54: skipping leading whitespace consumes the whole run of whitespace and nothing else. -/
theorem C54_whitespace (e : Enc) (l : Layout) (cps : List Nat) (h : ∀ cp ∈ cps, IsScalar cp) (hl : GoodLayout e l cps) :
    ∃ ws rest, cps = ws ++ rest ∧ (∀ c ∈ ws, isSpace c = true) ∧ (∀ c, rest.head? = some c → isSpace c = false) ∧
      skipSpace e l true (encodes e cps) = .ok (encodes e rest) ∧
      skipSpace e l false (encodes e cps) = if rest = [] then .err .endOfInput else .ok (encodes e rest) := by
  refine ⟨cps.takeWhile isSpace, cps.dropWhile isSpace, List.takeWhile_append_dropWhile.symm, fun c hc => (mem_takeWhile hc).2,
    ?_, ?_, ?_⟩
  · exact fun c hc => dropWhile_head? hc
  · rw [skipSpace_encodes e l cps h hl, if_neg (by simp)]
  · rw [skipSpace_encodes e l cps h hl]
    by_cases hx : cps.takeWhile isSpace = cps
    · rw [if_pos ⟨rfl, hx⟩, if_pos ((dropWhile_nil_iff _ _).mpr hx)]
    · rw [if_neg (fun hh => hx hh.2), if_neg (fun hh => hx ((dropWhile_nil_iff _ _).mp hh))]

example : skipSpace .utf8 .contiguous false [32, 0xc2, 0x85, 9, 97, 32] = .ok [97, 32] := by decide +kernel

/-- C54: skipping fill consumes the longest run of fill characters within the limit (`0`: no limit)
    and nothing else, and counts its columns. -/
theorem C54_fill (e : Enc) (fill : Fill) (f : Nat) (hf : IsScalar f) (hu : fill.units e = encode e f) (n : Nat)
    (cps : List Nat) (h : ∀ cp ∈ cps, IsScalar cp) :
    ∃ k rest, cps = List.replicate k f ++ rest ∧ skipFill e (encodes e cps) n fill true = some (encodes e rest, ((k * columns f : Nat) : Int)) ∧
      (n ≠ 0 → k * columns f ≤ n) ∧ (rest.head? = some f → n ≠ 0 ∧ n < (k + 1) * columns f) := by
  have hrep : ∀ l : List Nat, l.takeWhile (· == f) = List.replicate (l.takeWhile (· == f)).length f := fun l =>
    List.eq_replicate_iff.mpr ⟨rfl, fun b hb => by simpa using (mem_takeWhile hb).2⟩
  have hcol : ∀ k, cols (List.replicate k f) = k * columns f := by
    intro k; induction k with
    | zero => simp [cols_nil]
    | succ k ih => rw [List.replicate_succ, cols_cons, ih, Nat.succ_mul]; omega
  by_cases hn : n = 0
  · subst hn
    refine ⟨(cps.takeWhile (· == f)).length, cps.dropWhile (· == f), ?_, ?_, fun hh => absurd rfl hh, fun hh => ?_⟩
    · rw [← hrep, List.takeWhile_append_dropWhile]
    · have := skipFill_unlimited e fill f hf hu cps h 0 (by omega) true
      rw [hrep, hcol] at this
      simpa using this
    · have := dropWhile_head? hh; simp at this
  · have hs := skipFill_limited e fill f hf hu cps h n hn
    have hpre : (fit n cps).takeWhile (· == f) <+: cps := (List.takeWhile_prefix _).trans (fit_prefix n cps)
    have hc : cols ((fit n cps).takeWhile (· == f)) ≤ n :=
      Nat.le_trans (cols_take_prefix (List.takeWhile_prefix _)) (fit_cols n cps)
    refine ⟨((fit n cps).takeWhile (· == f)).length, cps.drop ((fit n cps).takeWhile (· == f)).length, ?_, ?_, fun _ => ?_, fun hh => ?_⟩
    · rw [← hrep]; exact drop_prefix_length hpre
    · rw [hs, ← hcol, ← hrep]
    · rw [← hcol, ← hrep]; exact hc
    · refine ⟨hn, Nat.lt_of_not_le fun hle => ?_⟩
      -- otherwise one more fill character fits
      rw [Nat.succ_mul, ← hcol, ← hrep] at hle
      have hsplit := drop_prefix_length hpre
      generalize hr : (fit n cps).takeWhile (· == f) = run at *
      cases hd : cps.drop run.length with
      | nil => rw [hd] at hh; cases hh
      | cons x xs =>
        rw [hd] at hh hsplit
        simp only [List.head?_cons, Option.some.injEq] at hh
        subst hh
        have h1 : run ++ [x] <+: fit n cps :=
          fit_longest n cps (run ++ [x]) ⟨xs, by rw [hsplit]; simp⟩ (by rw [cols_append, cols_cons, cols_nil]; omega)
        obtain ⟨t, ht⟩ := h1
        have h2 : ((fit n cps).takeWhile (· == x)).length ≥ run.length + 1 := by
          rw [← ht, List.append_assoc, List.takeWhile_append_of_pos (by
            intro a ha; rw [← hr] at ha; exact (mem_takeWhile ha).2)]
          simp
        rw [hr] at h2; omega

/-- Fill U+3000 (two columns) with the limit 5: two of three are skipped. -/
example : IsScalar 0x3000 ∧ (Fill.mk [0xe3, 0x80, 0x80, 0] 3).units .utf8 = encode .utf8 0x3000 ∧
    skipFill .utf8 (encodes .utf8 [0x3000, 0x3000, 0x3000, 97]) 5 ⟨[0xe3, 0x80, 0x80, 0], 3⟩ true =
      some (encodes .utf8 [0x3000, 97], 4) := by
  refine ⟨by unfold IsScalar; decide, by decide, by decide +kernel⟩

theorem readWhileUnitsAux_any (u : List Nat) (hu : u ≠ []) : ∀ (n : Nat) (s : List Nat), s.length ≤ n →
    ∃ k rest, s = (List.replicate k u).flatten ++ rest ∧ readWhileUnitsAux u n s = some rest ∧ ¬ u <+: rest := by
  have hnil : ¬ u <+: ([] : List Nat) := fun hh => hu (List.prefix_nil.mp hh)
  intro n
  induction n with
  | zero =>
    intro s hs
    have : s = [] := List.length_eq_zero_iff.mp (by omega)
    subst this
    exact ⟨0, [], by simp, rfl, hnil⟩
  | succ n ih =>
    intro s hs
    cases s with
    | nil => exact ⟨0, [], by simp, rfl, hnil⟩
    | cons c cs =>
      by_cases hp : u.isPrefixOf (c :: cs) = true
      · obtain ⟨t, ht⟩ := List.isPrefixOf_iff_prefix.mp hp
        have hl : 1 ≤ u.length := Nat.one_le_iff_ne_zero.mpr fun hh => hu (List.length_eq_zero_iff.mp hh)
        have htl : t.length ≤ n := by
          have := congrArg List.length ht; rw [List.length_append] at this; omega
        obtain ⟨k, rest, h1, h2, h3⟩ := ih t htl
        refine ⟨k + 1, rest, ?_, ?_, h3⟩
        · rw [List.replicate_succ, List.flatten_cons, List.append_assoc, ← h1, ht]
        · rw [readWhileUnitsAux, if_pos hp, ← ht, List.drop_left, h2]
      · refine ⟨0, c :: cs, by simp, ?_, fun hh => hp (List.isPrefixOf_iff_prefix.mpr hh)⟩
        rw [readWhileUnitsAux, if_neg hp]

/-- C54 on arbitrary (also malformed) sources, without a limit: the longest run of copies of the
    units of the fill character is skipped. -/
theorem C54_fill_any_source (e : Enc) (fill : Fill) (hu : fill.units e ≠ []) (s : List Nat) :
    ∃ k rest w, s = (List.replicate k (fill.units e)).flatten ++ rest ∧ skipFill e s 0 fill true = some (rest, w) ∧
      ¬ fill.units e <+: rest := by
  unfold skipFill
  dsimp only
  rw [if_pos rfl]
  have key : ∃ k rest, s = (List.replicate k (fill.units e)).flatten ++ rest ∧ readWhileFill (fill.units e) s = some rest ∧
      ¬ fill.units e <+: rest := by
    unfold readWhileFill
    split
    · rename_i u hu1
      rw [hu1]
      refine ⟨(s.takeWhile (· == u)).length, s.dropWhile (· == u), ?_, ?_, ?_⟩
      · have : s.takeWhile (· == u) = List.replicate (s.takeWhile (· == u)).length u :=
          List.eq_replicate_iff.mpr ⟨rfl, fun b hb => by simpa using (mem_takeWhile hb).2⟩
        have hf : ∀ k, (List.replicate k [u]).flatten = List.replicate k u := by
          intro k; induction k with
          | zero => rfl
          | succ k ih => rw [List.replicate_succ, List.flatten_cons, ih]; rfl
        rw [hf, ← this, List.takeWhile_append_dropWhile]
      · simp only [readWhileUnit, readUntilUnit, Bool.not_not]
      · rintro ⟨t, ht⟩
        have := dropWhile_head? (p := (· == u)) (l := s) (c := u) (by rw [← ht]; rfl)
        simp at this
    · exact readWhileUnitsAux_any _ hu _ s (Nat.le_refl _)
  obtain ⟨k, rest, h1, h2, h3⟩ := key
  rw [h2]
  exact ⟨k, rest, _, h1, rfl, h3⟩

example : (Fill.mk [42, 0, 0, 0] 1).units .utf8 ≠ [] ∧
    skipFill .utf8 [42, 42, 0xff, 42] 0 ⟨[42, 0, 0, 0], 1⟩ true = some ([0xff, 42], 2) := by decide

/-! ### C59: whitespace before a field and the field width -/

/-- What the documentation says (/repo/include/scn/scan.h:8141-8151): fields that skip whitespace
    skip it first, whatever the alignment, without counting it; then the field is read, with fill
    before the value unless specified otherwise. -/
def Spec.PaddedField.readDocumented (F : PaddedField) (skipWs : Bool) (rd : List Nat → Res (V × List Nat)) (cps : List Nat) :
    Res (V × List Nat) :=
  let side := if F.side = .unspecified then (if skipWs then .before else .after) else F.side
  PaddedField.read { F with side := side } skipWs rd (if skipWs then cps.dropWhile isSpace else cps)

/-- C59 is violated: whitespace counts towards the width ("{:3}" accepts "  1", which is one column
    wide), and towards the precision ("{:.2}" on "  12" fails), and is not skipped when there is an
    alignment ("{:*>}" on " 1" fails). -/
theorem C59_violated :
    (argRead .utf8 { ({} : Specs) with width := 3 } (intReader .utf8 ⟨32, true⟩ 10 false) (fun _ => .contiguous) [32, 32, 49] =
        .ok (1, []) ∧
      (PaddedField.readDocumented ⟨3, 0, .unspecified, 32⟩ true (scanIntW ⟨32, true⟩ 10 false) [32, 32, 49]) = .err .lengthTooShort) ∧
    (argRead .utf8 { ({} : Specs) with precision := 2 } (intReader .utf8 ⟨32, true⟩ 10 false) (fun _ => .contiguous) [32, 32, 49, 50] =
        .err .endOfInput ∧
      (PaddedField.readDocumented ⟨0, 2, .unspecified, 32⟩ true (scanIntW ⟨32, true⟩ 10 false) [32, 32, 49, 50]) = .ok (12, [])) ∧
    (argRead .utf8 { ({} : Specs) with align := .right, fill := ⟨[42, 0, 0, 0], 1⟩ } (intReader .utf8 ⟨32, true⟩ 10 false)
        (fun _ => .contiguous) [32, 49] = .err .invalidScannedValue ∧
      (PaddedField.readDocumented ⟨0, 0, .before, 42⟩ true (scanIntW ⟨32, true⟩ 10 false) [32, 49]) = .ok (1, [])) := by
  refine ⟨⟨?_, ?_⟩, ⟨?_, ?_⟩, ?_, ?_⟩ <;> decide +kernel

/-- C59 holds for fields that skip whitespace and have no alignment, if the text does not start with
    whitespace, or if there is neither a width nor a precision (and something follows, the first
    character of which fits the precision). -/
theorem C59_partial (e : Enc) (sp : Specs) (F : PaddedField) (hF : Describes e sp F) (hside : F.side = .unspecified)
    (hfill : F.fill = 32) (rd : Reader V) (hws : rd.skipWs = true) (rds : List Nat → Res (V × List Nat)) {P : Nat → Prop}
    (hrd : Whole e P rd.read rds) (lay : List Nat → Layout) (ws cps : List Nat) (hP : ∀ cp ∈ ws ++ cps, P cp)
    (hlay : ∀ t, t <:+ ws ++ cps → GoodLayout e (lay (encodes e t)) t)
    (hsp : ∀ c ∈ ws, isSpace c = true) (c : Nat) (hc : cps.head? = some c) (hns : isSpace c = false)
    (hwide : F.precision = 0 ∨ columns c ≤ F.precision) (hnone : ws = [] ∨ (F.width = 0 ∧ F.precision = 0)) :
    argRead e sp rd lay (encodes e (ws ++ cps)) =
      (F.readDocumented true rds (ws ++ cps)).map fun r => (r.1, encodes e r.2) := by
  rw [argRead_spec e sp F hF rd rds hrd lay _ hP hlay, hws]
  congr 1
  obtain ⟨cs, rfl⟩ : ∃ cs, cps = c :: cs := by
    cases cps with
    | nil => cases hc
    | cons x xs => simp only [List.head?_cons, Option.some.injEq] at hc; exact ⟨xs, by rw [hc]⟩
  have h32 : c ≠ 32 := by rintro rfl; revert hns; decide
  have hdrop : (ws ++ c :: cs).dropWhile isSpace = c :: cs := by
    rw [List.dropWhile_append_of_pos hsp, List.dropWhile_cons_of_neg (by simp [hns])]
  have htake : (ws ++ c :: cs).takeWhile isSpace = ws := by
    rw [List.takeWhile_append_of_pos hsp, List.takeWhile_cons_of_neg (by simp [hns]), List.append_nil]
  unfold PaddedField.readDocumented
  simp only [if_true]
  rw [hdrop, if_pos hside]
  -- nothing more is skipped before the value
  have hb2 : PaddedField.before ⟨F.width, F.precision, .before, F.fill⟩ true (c :: cs) = [] := by
    simp only [PaddedField.before, PaddedField.view, hfill]
    split
    · rw [List.takeWhile_cons_of_neg (by simpa using h32)]
    · rw [fit]
      split
      · rw [List.takeWhile_cons_of_neg (by simpa using h32)]
      · rfl
  have hA : ∀ u l, F.after true u l = [] := by intro u l; unfold PaddedField.after; rw [hside]; simp
  rcases hnone with rfl | ⟨hw, hp⟩
  · have hb1 : F.before true (c :: cs) = [] := by
      simp only [PaddedField.before, hside, if_true, PaddedField.view]
      split
      · rw [List.takeWhile_cons_of_neg (by simp [hns])]
      · rw [fit]
        split
        · rw [List.takeWhile_cons_of_neg (by simp [hns])]
        · rfl
    have hv : F.view 0 (c :: cs) ≠ [] := by
      unfold PaddedField.view
      split
      · simp
      · rw [fit, if_pos (by omega)]; simp
    have hv2 : ∀ u l, PaddedField.view ⟨F.width, F.precision, .before, F.fill⟩ u l = F.view u l := fun _ _ => rfl
    have hA2 : ∀ u l, PaddedField.after ⟨F.width, F.precision, .before, F.fill⟩ true u l = [] := fun _ _ => rfl
    simp only [List.nil_append, PaddedField.read, hb1, hb2, hA, hA2, hv2]
    rw [if_neg (fun hh => hv hh.2.2.symm), if_neg (by simp [cols_nil]), if_neg (by simp)]
  · have hv1 : ∀ u l, F.view u l = l := by intro u l; unfold PaddedField.view; rw [if_pos hp]
    have hv2 : ∀ u l, PaddedField.view ⟨F.width, F.precision, .before, F.fill⟩ u l = l := hv1
    have hA2 : ∀ u l, PaddedField.after ⟨F.width, F.precision, .before, F.fill⟩ true u l = [] := fun _ _ => rfl
    have hb1 : F.before true (ws ++ c :: cs) = ws := by
      simp only [PaddedField.before, hside, if_true, hv1, htake]
    simp only [PaddedField.read, hb1, hb2, hA, hA2, hv1, hv2]
    rw [if_neg (fun hh => by simpa using hh.2.2), if_neg (by simp [hp]), if_neg (by simp), if_neg (by simp [hp]), List.drop_left]
    simp [hw]

example : Describes .utf8 {} ⟨0, 0, .unspecified, 32⟩ ∧
    argRead .utf8 {} (intReader .utf8 ⟨32, true⟩ 10 false) (fun _ => .contiguous) [32, 9, 52, 50, 33] = .ok (42, [33]) :=
  ⟨describes_default _ 0 0, by decide +kernel⟩

/-! ### C60: the width of characters -/

/-- C60: every character of the three blocks the documentation lists has width two; all characters
    below U+1100 have width one; every width is one or two. -/
theorem C60_blocks_partial (cp : Nat) :
    ((0x4dc0 ≤ cp ∧ cp ≤ 0x4dff) ∨ (0x1f300 ≤ cp ∧ cp ≤ 0x1f5ff) ∨ (0x1f900 ≤ cp ∧ cp ≤ 0x1f9ff) → textWidth cp = 2) ∧
      (cp < 0x1100 → textWidth cp = 1) ∧ (textWidth cp = 1 ∨ textWidth cp = 2) := by
  unfold textWidth
  refine ⟨fun h => ?_, fun h => ?_, ?_⟩
  · rw [if_pos (by omega)]
  · rw [if_neg (by omega)]
  · split <;> simp

/-- C60 is violated: U+231A WATCH, U+A960 HANGUL CHOSEONG TIKEUT-MIEUM and U+1F680 ROCKET have
    East_Asian_Width=W (EastAsianWidth.txt) but width one. -/
theorem C60_violated : textWidth 0x231a = 1 ∧ textWidth 0xa960 = 1 ∧ textWidth 0x1f680 = 1 := by decide

example : textWidth 0x4dc0 = 2 ∧ textWidth 0x1f5ff = 2 ∧ textWidth 97 = 1 := by decide

end Scn
