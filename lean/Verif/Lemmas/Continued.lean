import Verif.Props.Calls
import Verif.Model.Readers
import Verif.Lemmas.Width
/-
Scanning with two format strings, one after the other.
-/
namespace Scn
open Spec

variable {V : Type}

/-- Enough fuel is enough. -/
theorem litLoop_enough (env : Env V) (n : Nat) : ∀ (s t : List Nat) (m : Nat), t.length ≤ n → n ≤ m → litLoop env m s t = litLoop env n s t := by
  induction n with
  | zero =>
    intro s t m ht _
    rw [List.length_eq_zero_iff.1 (Nat.le_zero.1 ht)]
    cases m <;> rfl
  | succ n ih =>
    intro s t m ht hm
    obtain ⟨m, rfl⟩ : ∃ k, m = k + 1 := ⟨m - 1, by omega⟩
    cases t with
    | nil => rfl
    | cons c cs =>
      have hcs : cs.length ≤ n := by simp only [List.length_cons] at ht; omega
      cases s with
      | nil => rfl
      | cons d ds =>
        rw [litLoop, litLoop]
        cases hg : getNext env.enc (c :: cs) with
        | none => rfl
        | some x =>
          obtain ⟨after, cp⟩ := x
          dsimp only
          split
          · rfl
          · split
            · cases hk : env.skip (d :: ds) with
              | none => rfl
              | some s' =>
                cases hr : readWhileSpace env.enc .contiguous after with
                | none => rfl
                | some t' =>
                  refine ih _ _ _ ?_ (by omega)
                  have h1 := (readWhileSpace_suffix _ _ _ _ hr).length_le
                  have h2 := getNext_length hg
                  simp only [List.length_cons] at h2
                  omega
            · split
              · rfl
              · exact ih _ _ _ hcs (by omega)

theorem litStep_loop (env : Env V) (n : Nat) (t s : List Nat) (h : t.length ≤ n) :
    litStep env t s = match litLoop env n s t with | none => .ub | some (r, none) => .ok r | some (_, some e) => .err e := by
  rw [litStep, litLoop_enough env t.length s t n (Nat.le_refl _) h]
  rfl

/-- Literal texts can be matched one after the other unless whitespace meets whitespace. -/
def Spec.Meet (e : Enc) (a b : List Nat) : Prop :=
  a = [] ∨ b = [] ∨ ∃ x y, a = encodes e x ∧ b = encodes e y ∧ (∀ c ∈ x, Simple e c) ∧ (∀ c ∈ y, IsScalar c) ∧
    ∀ c d, x.getLast? = some c → y.head? = some d → isSpace c = true → isSpace d = false

theorem litStep_append_encodes (env : Env V) (y : List Nat) (hy : ∀ c ∈ y, IsScalar c) (n : Nat) :
    ∀ x s, (encodes env.enc x).length ≤ n → (∀ c ∈ x, Simple env.enc c) →
      (∀ c d, x.getLast? = some c → y.head? = some d → isSpace c = true → isSpace d = false) →
      litStep env (encodes env.enc x ++ encodes env.enc y) s = (litStep env (encodes env.enc x) s).bind fun r => litStep env (encodes env.enc y) r := by
  induction n with
  | zero =>
    intro x s hx _ _
    have : encodes env.enc x = [] := List.length_eq_zero_iff.1 (Nat.le_zero.1 hx)
    rw [this, litStep_nil, Res.bind_ok, List.nil_append]
  | succ n ih =>
    intro x s hx hS hj
    cases x with
    | nil => rw [encodes_nil, litStep_nil, Res.bind_ok, List.nil_append]
    | cons a t =>
      have haS := hS a (by simp)
      have htS : ∀ cp ∈ t, Simple env.enc cp := fun cp hcp => hS cp (by simp [hcp])
      obtain ⟨c, cs, hc, _, _⟩ := encode_head env.enc a haS.1
      have htext : encodes env.enc (a :: t) = c :: (cs ++ encodes env.enc t) := by
        rw [encodes_cons, hc]; rfl
      cases s with
      | nil => rw [htext]; rfl
      | cons d ds =>
        have hlen : (encodes env.enc t).length ≤ n := by
          rw [htext] at hx; simp only [List.length_cons, List.length_append] at hx; omega
        have step : ∀ z : List Nat, (∀ c ∈ z, IsScalar c) → litStep env (c :: (cs ++ encodes env.enc t ++ encodes env.enc z)) (d :: ds) =
            if isSpace a then
              match env.skip (d :: ds) with
              | none => .ub
              | some s' => litStep env (encodes env.enc ((t ++ z).dropWhile isSpace)) s'
            else if d ≠ c then .err .invalidLiteral
            else litStep env (encodes env.enc t ++ encodes env.enc z) ds := by
          intro z hz
          have hgn : getNext env.enc (c :: (cs ++ encodes env.enc t ++ encodes env.enc z)) = some (encodes env.enc t ++ encodes env.enc z, a) := by
            have := getNext_encode env.enc a haS.1 (encodes env.enc t ++ encodes env.enc z)
            rw [hc] at this
            rw [← this, List.cons_append, List.append_assoc]
          rw [litStep, List.length_cons, litLoop, hgn]
          dsimp only
          rw [if_neg (scalar_ne_invalid haS.1), isSpace_eq]
          by_cases hsp : isSpace a = true
          · rw [if_pos hsp, if_pos hsp]
            have htz : ∀ c ∈ t ++ z, IsScalar c := by
              intro c hc
              rcases List.mem_append.1 hc with h | h
              · exact (htS c h).1
              · exact hz c h
            rw [← encodes_append, readWhileSpace_encodes env.enc .contiguous (t ++ z) htz (by cases env.enc <;> trivial)]
            cases env.skip (d :: ds) with
            | none => rfl
            | some s' =>
              dsimp only
              rw [litStep_loop env (cs ++ encodes env.enc (t ++ z)).length]
              · rw [List.append_assoc, ← encodes_append]
                rfl
              · have h2 : encodes env.enc (t ++ z) =
                    encodes env.enc ((t ++ z).takeWhile isSpace) ++ encodes env.enc ((t ++ z).dropWhile isSpace) := by
                  rw [← encodes_append, List.takeWhile_append_dropWhile]
                rw [List.length_append, h2, List.length_append]; omega
          · rw [if_neg hsp, if_neg hsp]
            obtain ⟨c', hc', _⟩ := encode_single haS.1 (haS.2.resolve_left hsp)
            rw [hc] at hc'
            simp only [List.cons.injEq] at hc'
            obtain ⟨-, rfl⟩ := hc'
            by_cases hdc : d = c
            · rw [if_neg (by simp [hdc]), if_neg (by simp [hdc])]
              rfl
            · rw [if_pos hdc, if_pos hdc]
        rw [htext]
        have s1 := step y hy
        have s0 := step [] (by simp)
        rw [encodes_nil, List.append_nil, List.append_nil, List.append_nil] at s0
        rw [List.cons_append, s1, s0]
        by_cases hsp : isSpace a = true
        · rw [if_pos hsp, if_pos hsp]
          cases hk : env.skip (d :: ds) with
          | none => rfl
          | some s' =>
            dsimp only
            rw [dropWhile_split]
            by_cases hall : t.dropWhile isSpace = []
            · rw [if_pos hall, hall, encodes_nil, litStep_nil, Res.bind_ok]
              have hyd : y.dropWhile isSpace = y := by
                cases y with
                | nil => rfl
                | cons d' y' =>
                  have hlast : ∃ c, (a :: t).getLast? = some c ∧ isSpace c = true := by
                    obtain ⟨c, hcl⟩ : ∃ c, (a :: t).getLast? = some c := ⟨_, List.getLast?_eq_some_getLast (by simp)⟩
                    refine ⟨c, hcl, ?_⟩
                    rcases List.mem_cons.1 (List.mem_of_getLast? hcl) with h | h
                    · rw [h]; exact hsp
                    · have := List.takeWhile_append_dropWhile (p := isSpace) (l := t)
                      rw [hall, List.append_nil] at this
                      rw [← this] at h
                      exact (mem_takeWhile h).2
                  obtain ⟨c, h1, h2⟩ := hlast
                  rw [List.dropWhile_cons_of_neg (by simp [hj c d' h1 rfl h2])]
              rw [hyd]
            · rw [if_neg hall, encodes_append]
              refine ih _ _ ?_ (fun cp hcp => htS cp ((List.dropWhile_suffix _).subset hcp)) ?_
              · refine Nat.le_trans ?_ hlen
                have h2 : encodes env.enc t =
                    encodes env.enc (t.takeWhile isSpace) ++ encodes env.enc (t.dropWhile isSpace) := by
                  rw [← encodes_append, List.takeWhile_append_dropWhile]
                rw [h2, List.length_append]; omega
              · intro c d' h1 h2
                refine hj c d' ?_ h2
                obtain ⟨p, hp⟩ := List.dropWhile_suffix isSpace (l := t)
                rw [← hp, ← List.cons_append, List.getLast?_append, h1]; rfl
        · rw [if_neg hsp, if_neg hsp]
          by_cases hdc : d = c
          · rw [if_neg (by simp [hdc]), if_neg (by simp [hdc])]
            refine ih _ _ hlen htS ?_
            intro c' d' h1 h2
            refine hj c' d' ?_ h2
            rw [List.getLast?_cons, h1]; rfl
          · rw [if_pos hdc, if_pos hdc]; rfl

theorem litStep_append (env : Env V) {a b : List Nat} (h : Meet env.enc a b) (s : List Nat) :
    litStep env (a ++ b) s = (litStep env a s).bind fun r => litStep env b r := by
  rcases h with rfl | rfl | ⟨x, y, rfl, rfl, hx, hy, hj⟩
  · rw [litStep_nil, Res.bind_ok, List.nil_append]
  · rw [List.append_nil]
    cases litStep env a s with
    | ub => rfl
    | err e => rfl
    | ok r => rw [Res.bind_ok, litStep_nil]
  · exact litStep_append_encodes env y hy _ x s (Nat.le_refl _) hx hj

/-- One call for the arguments of two. -/
structure Joins (env env1 env2 : Env V) : Prop where
  enc1 : env1.enc = env.enc
  enc2 : env2.enc = env.enc
  cfg1 : env1.cfg = env.cfg
  cfg2 : env2.cfg = env.cfg
  skip1 : env1.skip = env.skip
  skip2 : env2.skip = env.skip
  count : env.count = env1.count + env2.count
  ty1 : ∀ i, i < env1.count → env.ty i = env1.ty i
  ty2 : ∀ i, i < env2.count → env.ty (env1.count + i) = env2.ty i
  default1 : ∀ i, i < env1.count → env.readDefault i = env1.readDefault i
  default2 : ∀ i, i < env2.count → env.readDefault (env1.count + i) = env2.readDefault i
  specs1 : ∀ i, i < env1.count → env.readSpecs i = env1.readSpecs i
  specs2 : ∀ i, i < env2.count → env.readSpecs (env1.count + i) = env2.readSpecs i
  custom1 : ∀ i, i < env1.count → env.readCustom i = env1.readCustom i
  custom2 : ∀ i, i < env2.count → env.readCustom (env1.count + i) = env2.readCustom i

theorem litLoop_same {env env' : Env V} (he : env'.enc = env.enc) (hs : env'.skip = env.skip) (n : Nat) :
    ∀ s t, litLoop env' n s t = litLoop env n s t := by
  induction n with
  | zero => intro s t; cases t <;> rfl
  | succ n ih =>
    intro s t
    cases t with
    | nil => rfl
    | cons c cs =>
      cases s with
      | nil => rfl
      | cons d ds => simp only [litLoop, he, hs, ih]

theorem litStep_same {env env' : Env V} (he : env'.enc = env.enc) (hs : env'.skip = env.skip) : litStep env' = litStep env := by
  funext t s
  rw [litStep, litStep, litLoop_same he hs]

theorem argTy_first {env env1 env2 : Env V} (h : Joins env env1 env2) {i : Nat} (hi : i < env1.count) : env.argTy i = env1.argTy i := by
  rw [Env.argTy, Env.argTy, if_pos hi, if_pos (by rw [h.count]; omega), h.ty1 i hi]

theorem argTy_later {env env1 env2 : Env V} (h : Joins env env1 env2) {i : Nat} (hi : i < env2.count) :
    env.argTy (env1.count + i) = env2.argTy i := by
  rw [Env.argTy, Env.argTy, if_pos hi, if_pos (by rw [h.count]; omega), h.ty2 i hi]

theorem fieldMeans_first {env env1 env2 : Env V} (h : Joins env env1 env2) {f : CallField V} (hi : f.id < env1.count)
    (hf : FieldMeans env1 f) : FieldMeans env f := by
  unfold FieldMeans at hf ⊢
  rw [argTy_first h hi, h.default1 _ hi, h.specs1 _ hi, h.custom1 _ hi, ← h.enc1, ← h.cfg1]
  exact hf

theorem fieldMeans_later {env env1 env2 : Env V} (h : Joins env env1 env2) {f : CallField V} (hi : f.id < env2.count) (g : List Nat)
    (hf : FieldMeans env2 f) : FieldMeans env { f with gap := g, id := env1.count + f.id } := by
  unfold FieldMeans at hf ⊢
  dsimp only
  rw [argTy_later h hi, h.default2 _ hi, h.specs2 _ hi, h.custom2 _ hi, ← h.enc2, ← h.cfg2]
  exact hf

theorem callFormat_later (c : Nat) (fs1 fs2 : List (CallField V)) (tail last : List Nat) :
    callFormat true (fs1 ++ laterFields tail c fs2) (laterLast tail fs2 last) = callFormat true fs1 tail ++ callFormat true fs2 last := by
  cases fs2 with
  | nil => simp [callFormat, laterFields, laterLast]
  | cons f fs =>
    simp [callFormat, laterFields, laterLast, CallField.text, List.flatMap_map, List.append_assoc]

theorem inOrder_shift (lit : List Nat → List Nat → Res (List Nat)) (c : Nat) (fs : List (CallField V)) (last : List Nat) :
    ∀ s, inOrder lit (fs.map fun f => { f with id := c + f.id }) last s =
      (inOrder lit fs last s).map fun q => (laterValues c q.1, q.2) := by
  induction fs with
  | nil => intro s; rw [List.map_nil, inOrder]; cases lit last s <;> rfl
  | cons f fs ih =>
    intro s
    rw [List.map_cons, inOrder, inOrder]
    dsimp only
    cases lit f.gap s with
    | ub => rfl
    | err e => rfl
    | ok s1 =>
      rw [Res.bind_ok, Res.bind_ok]
      cases f.read s1 with
      | ub => rfl
      | err e => rfl
      | ok r =>
        rw [Res.bind_ok, Res.bind_ok, ih]
        cases inOrder lit fs last r.2 <;> rfl

theorem inOrder_later (lit : List Nat → List Nat → Res (List Nat)) (c : Nat) (fs2 : List (CallField V)) (tail last : List Nat)
    (hm : ∀ s, lit (tail ++ firstText fs2 last) s = (lit tail s).bind fun r => lit (firstText fs2 last) r) (fs1 : List (CallField V)) :
    ∀ s, inOrder lit (fs1 ++ laterFields tail c fs2) (laterLast tail fs2 last) s =
      (inOrder lit fs1 tail s).bind fun p => (inOrder lit fs2 last p.2).map fun q => (p.1 ++ laterValues c q.1, q.2) := by
  induction fs1 with
  | nil =>
    intro s
    rw [List.nil_append, inOrder]
    cases fs2 with
    | nil =>
      rw [laterFields, laterLast, inOrder]
      have := hm s
      rw [firstText] at this
      rw [this]
      cases lit tail s with
      | ub => rfl
      | err e => rfl
      | ok r =>
        rw [Res.bind_ok, Res.map_ok, Res.bind_ok, inOrder]
        cases lit last r <;> rfl
    | cons f fs =>
      rw [laterFields, laterLast, inOrder]
      have := hm s
      rw [firstText] at this
      dsimp only
      rw [this]
      cases lit tail s with
      | ub => rfl
      | err e => rfl
      | ok r =>
        rw [Res.bind_ok, Res.map_ok, Res.bind_ok, inOrder]
        dsimp only
        cases lit f.gap r with
        | ub => rfl
        | err e => rfl
        | ok s1 =>
          rw [Res.bind_ok, Res.bind_ok]
          cases f.read s1 with
          | ub => rfl
          | err e => rfl
          | ok r =>
            rw [Res.bind_ok, Res.bind_ok, inOrder_shift]
            cases inOrder lit fs last r.2 <;> rfl
  | cons f fs ih =>
    intro s
    rw [List.cons_append, inOrder, inOrder]
    cases lit f.gap s with
    | ub => rfl
    | err e => rfl
    | ok s1 =>
      rw [Res.bind_ok, Res.bind_ok]
      cases f.read s1 with
      | ub => rfl
      | err e => rfl
      | ok r =>
        rw [Res.bind_ok, Res.bind_ok, ih]
        cases inOrder lit fs tail r.2 with
        | ub => rfl
        | err e => rfl
        | ok p =>
          rw [Res.bind_ok, Res.map_ok, Res.bind_ok]
          dsimp only
          cases inOrder lit fs2 last p.2 <;> rfl

theorem readBefore_shift (lit : List Nat → List Nat → Res (List Nat)) (c : Nat) (fs : List (CallField V)) :
    ∀ s, readBefore lit (fs.map fun f => { f with id := c + f.id }) s = laterValues c (readBefore lit fs s) := by
  induction fs with
  | nil => intro s; rfl
  | cons f fs ih =>
    intro s
    rw [List.map_cons, readBefore, readBefore]
    dsimp only
    cases (lit f.gap s).bind f.read with
    | ub => rfl
    | err e => rfl
    | ok r => dsimp only; rw [ih]; rfl

theorem readBefore_later (lit : List Nat → List Nat → Res (List Nat)) (c : Nat) (fs2 : List (CallField V)) (tail last : List Nat)
    (hm : ∀ s, lit (tail ++ firstText fs2 last) s = (lit tail s).bind fun r => lit (firstText fs2 last) r) (fs1 : List (CallField V)) :
    ∀ s vs r, inOrder lit fs1 tail s = .ok (vs, r) →
      readBefore lit (fs1 ++ laterFields tail c fs2) s = vs ++ laterValues c (readBefore lit fs2 r) := by
  induction fs1 with
  | nil =>
    intro s vs r h
    rw [inOrder] at h
    cases hl : lit tail s with
    | ub => rw [hl] at h; cases h
    | err e => rw [hl] at h; cases h
    | ok r' =>
      rw [hl, Res.map_ok] at h
      cases h
      rw [List.nil_append, List.nil_append]
      cases fs2 with
      | nil => rfl
      | cons f fs =>
        rw [laterFields, readBefore, readBefore]
        dsimp only
        have := hm s
        rw [firstText] at this
        rw [this, hl, Res.bind_ok]
        cases (lit f.gap r).bind f.read with
        | ub => rfl
        | err e => rfl
        | ok q => dsimp only; rw [readBefore_shift]; rfl
  | cons f fs ih =>
    intro s vs r h
    rw [inOrder] at h
    rw [List.cons_append, readBefore]
    cases hl : lit f.gap s with
    | ub => rw [hl] at h; cases h
    | err e => rw [hl] at h; cases h
    | ok s1 =>
      rw [hl, Res.bind_ok] at h
      rw [Res.bind_ok]
      cases hr : f.read s1 with
      | ub => rw [hr] at h; cases h
      | err e => rw [hr] at h; cases h
      | ok q =>
        rw [hr, Res.bind_ok] at h
        dsimp only
        cases hi : inOrder lit fs tail q.2 with
        | ub => rw [hi] at h; cases h
        | err e => rw [hi] at h; cases h
        | ok p =>
          rw [hi, Res.map_ok] at h
          cases h
          rw [ih q.2 p.1 p.2 hi]
          rfl

theorem inOrder_ids (lit : List Nat → List Nat → Res (List Nat)) (fs : List (CallField V)) (last : List Nat) :
    ∀ s vs r, inOrder lit fs last s = .ok (vs, r) → vs.map Prod.fst = fs.map fun f => f.id := by
  induction fs with
  | nil =>
    intro s vs r h
    rw [inOrder] at h
    cases hl : lit last s with
    | ub => rw [hl] at h; cases h
    | err e => rw [hl] at h; cases h
    | ok p => rw [hl, Res.map_ok] at h; cases h; rfl
  | cons f fs ih =>
    intro s vs r h
    rw [inOrder] at h
    cases hl : lit f.gap s with
    | ub => rw [hl] at h; cases h
    | err e => rw [hl] at h; cases h
    | ok s1 =>
      rw [hl, Res.bind_ok] at h
      cases hr : f.read s1 with
      | ub => rw [hr] at h; cases h
      | err e => rw [hr] at h; cases h
      | ok q =>
        rw [hr, Res.bind_ok] at h
        cases hi : inOrder lit fs last q.2 with
        | ub => rw [hi] at h; cases h
        | err e => rw [hi] at h; cases h
        | ok p =>
          rw [hi, Res.map_ok] at h
          cases h
          rw [List.map_cons, List.map_cons, ih q.2 p.1 p.2 hi]

theorem laterFields_ids (tail : List Nat) (c : Nat) (fs : List (CallField V)) :
    (laterFields tail c fs).map (fun f => f.id) = (fs.map fun f => f.id).map (c + ·) := by
  cases fs with
  | nil => rfl
  | cons f fs => simp [laterFields]

theorem numbered_later {env env1 env2 : Env V} (h : Joins env env1 env2) {fs1 fs2 : List (CallField V)} (tail : List Nat)
    (h1 : Numbered true (fs1.map fun f => f.id) env1.count) (h2 : Numbered true (fs2.map fun f => f.id) env2.count) :
    Numbered true ((fs1 ++ laterFields tail env1.count fs2).map fun f => f.id) env.count := by
  have he : (fs1 ++ laterFields tail env1.count fs2).map (fun f => f.id) = List.range env.count := by
    rw [List.map_append, laterFields_ids, h1.ordered rfl, h2.ordered rfl, h.count, List.range_add]
  rw [he]
  exact ⟨List.nodup_range, List.length_range, fun i hi => List.mem_range.1 hi, fun _ => rfl⟩

theorem noBrace_append {a b : List Nat} (ha : NoBrace a) (hb : NoBrace b) : NoBrace (a ++ b) := by
  intro c hc
  rcases List.mem_append.1 hc with h | h
  · exact ha c h
  · exact hb c h

theorem fields_later {env env1 env2 : Env V} (h : Joins env env1 env2) {fs1 fs2 : List (CallField V)} {tail : List Nat} (ht : NoBrace tail)
    (hf1 : ∀ f ∈ fs1, FieldMeans env1 f ∧ NoBrace f.gap) (hf2 : ∀ f ∈ fs2, FieldMeans env2 f ∧ NoBrace f.gap)
    (h1 : Numbered true (fs1.map fun f => f.id) env1.count) (h2 : Numbered true (fs2.map fun f => f.id) env2.count) :
    ∀ f ∈ fs1 ++ laterFields tail env1.count fs2, FieldMeans env f ∧ NoBrace f.gap := by
  intro f hf
  have hb2 : ∀ f ∈ fs2, f.id < env2.count := fun f hf => h2.below _ (List.mem_map_of_mem hf)
  rcases List.mem_append.1 hf with hf | hf
  · exact ⟨fieldMeans_first h (h1.below _ (List.mem_map_of_mem hf)) (hf1 f hf).1, (hf1 f hf).2⟩
  · cases fs2 with
    | nil => cases hf
    | cons g fs =>
      rcases List.mem_cons.1 hf with rfl | hf
      · exact ⟨fieldMeans_later h (hb2 g (by simp)) _ (hf2 g (by simp)).1, noBrace_append ht (hf2 g (by simp)).2⟩
      · obtain ⟨g', hg', rfl⟩ := List.mem_map.1 hf
        exact ⟨fieldMeans_later h (hb2 g' (by simp [hg'])) g'.gap (hf2 g' (by simp [hg'])).1, (hf2 g' (by simp [hg'])).2⟩

theorem noBrace_laterLast {tail last : List Nat} (fs : List (CallField V)) (ht : NoBrace tail) (hl : NoBrace last) :
    NoBrace (laterLast tail fs last) := by
  cases fs with
  | nil => exact noBrace_append ht hl
  | cons f fs => exact hl

/-- The destinations of two calls, as the destinations of one. -/
theorem stdEnv_joins (e wide : Enc) (cfg : RegexCfg) (loc : LocaleData) (old : Nat) (ds1 ds2 : List Dest) :
    Joins (stdEnv e wide cfg loc old (ds1 ++ ds2)) (stdEnv e wide cfg loc old ds1) (stdEnv e wide cfg loc old ds2) := by
  have g1 : ∀ i, i < ds1.length → (ds1 ++ ds2)[i]? = ds1[i]? := fun i hi => List.getElem?_append_left hi
  have g2 : ∀ i, (ds1 ++ ds2)[ds1.length + i]? = ds2[i]? := by
    intro i
    rw [List.getElem?_append_right (by omega), Nat.add_sub_cancel_left]
  refine ⟨rfl, rfl, rfl, rfl, rfl, rfl, List.length_append, ?_, ?_, ?_, ?_, ?_, ?_, fun _ _ => rfl, fun _ _ => rfl⟩
  · intro i hi; show ((((ds1 ++ ds2)[i]?).map Dest.argTy).getD .none) = _; rw [g1 i hi]; rfl
  · intro i _; show ((((ds1 ++ ds2)[ds1.length + i]?).map Dest.argTy).getD .none) = _; rw [g2]; rfl
  · intro i hi; funext s; simp only [stdEnv] at hi ⊢; rw [g1 i hi]
  · intro i _; funext s; simp only [stdEnv]; rw [g2]
  · intro i hi; funext sp s; simp only [stdEnv] at hi ⊢; rw [g1 i hi]
  · intro i _; funext sp s; simp only [stdEnv]; rw [g2]

end Scn
